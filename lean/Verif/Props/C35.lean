import Verif.Proofs.Labels
import Verif.Props.C32
import Verif.Props.C14Life
import Verif.Props.Sessions
import Verif.Props.MachineEx

/-!
# C35: text in fixed-width fields

`C35_copy`: `copy_sized_string` itself.  `C35_widths`: every field of C_GetTokenInfo has its width.  `C35_label`: the label given to
C_InitToken, at any later time.  `C35_empty_violation`: an empty text leaves the field as it was.
-/

namespace Kry
namespace Spec

/-- The text in a field of `n` bytes: without a final NUL, cut to the field or followed by blanks. -/
def fixedWidth (n : Nat) (s : Bytes) : Bytes :=
  let s := if s.getLast? = some 0 then s.dropLast else s
  (s ++ List.replicate n 0x20).take n

end Spec

open Spec

variable {M : Mechs} {C : Crypto} {O : Oracle}

/-- Every source but the empty one, into every field: the field is the source cut or padded; it keeps its size in any case. -/
theorem C35_copy (s d : Bytes) : (copySized s d).length = d.length ∧ (s ≠ [] → copySized s d = fixedWidth d.length s) := by
  refine ⟨copySized_length s d, fun hs => ?_⟩
  unfold copySized fixedWidth
  cases h : s.getLast? with
  | none => exact absurd (List.getLast?_eq_none_iff.1 h) hs
  | some c =>
    simp only [Option.some.injEq]
    by_cases hc : c = 0
    · simp only [if_pos hc]
      rw [List.dropLast_eq_take]
      split
      · rw [List.take_append_of_le_length (by rw [List.length_take]; omega), List.take_take]
        congr 1
        omega
      · rw [List.take_append]
        simp only [List.length_take, List.take_take, List.take_replicate]
        congr 1
        · congr 1; omega
        · congr 1; omega
    · simp only [if_neg hc]
      split
      · rw [List.take_append_of_le_length (by omega)]
      · rw [List.take_append, List.take_replicate]
        congr 1
        · rw [List.take_of_length_le (by omega), List.take_of_length_le (by omega)]
        · congr 1; omega

/-! ## The machine -/

theorem loadInfoRows_widths {l : List (MetaKey × Bytes)} {i i' : TokInfo} (hi : widths i) (h : loadInfoRows i l = .ok i') : widths i' := by
  induction l generalizing i with
  | nil => cases h; exact hi
  | cons p l ih =>
    obtain ⟨k, v⟩ := p
    unfold loadInfoRows at h
    cases hr : loadInfoRow i k v with
    | error r => rw [hr] at h; cases h
    | ok i2 =>
      rw [hr] at h
      refine ih ?_ h
      unfold loadInfoRow at hr
      repeat' split at hr
      all_goals first
        | (cases hr; done)
        | (cases hr; exact hi)
        | (cases hr
           obtain ⟨h1, h2, h3, h4⟩ := hi
           first
             | exact ⟨(copySized_length _ _).trans h1, h2, h3, h4⟩
             | exact ⟨h1, (copySized_length _ _).trans h2, h3, h4⟩
             | exact ⟨h1, h2, (copySized_length _ _).trans h3, h4⟩
             | exact ⟨h1, h2, h3, (copySized_length _ _).trans h4⟩)

theorem loadInfoRow_label {info i' : TokInfo} {k : MetaKey} {v : Bytes} (h : loadInfoRow info k v = .ok i') :
    (k ≠ .label → i'.label = info.label) ∧ (k = .label → i'.label = copySized v info.label) := by
  unfold loadInfoRow at h
  split at h
  case h_5 =>
    split at h
    · cases h
    · cases h; exact ⟨fun _ => rfl, nofun⟩
  case h_1 => cases h; exact ⟨fun x => absurd rfl x, fun _ => rfl⟩
  all_goals
    injection h with h
    subst h
    refine ⟨fun _ => rfl, fun x => ?_⟩
    first | (cases x; done) | (subst x; contradiction)

theorem loadInfoRows_label {l : List (MetaKey × Bytes)} {info i' : TokInfo} {v : Bytes} (hn : (AMap.keys l).Nodup)
    (hw : widths info) (hv : v ≠ []) (hg : AMap.get l .label = some v) (h : loadInfoRows info l = .ok i') :
    i'.label = copySized v (List.replicate 32 0) := by
  have rest : ∀ (l : List (MetaKey × Bytes)) (info i' : TokInfo), .label ∉ AMap.keys l → loadInfoRows info l = .ok i' →
      i'.label = info.label := by
    intro l
    induction l with
    | nil => intro info i' _ h; cases h; rfl
    | cons p l ih =>
      intro info i' hm h
      obtain ⟨k, w⟩ := p
      unfold loadInfoRows at h
      cases hr : loadInfoRow info k w with
      | error r => rw [hr] at h; cases h
      | ok i2 =>
        rw [hr] at h
        have h1 : k ≠ .label := fun hk => hm (hk ▸ List.mem_cons_self ..)
        exact (ih _ _ (fun hm' => hm (List.mem_cons_of_mem _ hm')) h).trans ((loadInfoRow_label hr).1 h1)
  induction l generalizing info with
  | nil => cases hg
  | cons p l ih =>
    obtain ⟨k, w⟩ := p
    have h0 := h
    unfold loadInfoRows at h
    cases hr : loadInfoRow info k w with
    | error r => rw [hr] at h; cases h
    | ok i2 =>
      rw [hr] at h
      have hnd := List.nodup_cons.1 hn
      by_cases hk : k = .label
      · subst hk
        rw [AMap.get_cons, if_pos rfl] at hg
        cases hg
        rw [rest l i2 i' hnd.1 h, (loadInfoRow_label hr).2 rfl]
        exact copySized_same hv (by rw [hw.1]; rfl)
      · rw [AMap.get_cons, if_neg hk] at hg
        refine ih hnd.2 ?_ hg h
        exact loadInfoRows_widths (l := [(k, w)]) hw (by unfold loadInfoRows; rw [hr]; rfl)

theorem texts_widths {i i' : TokInfo} (h : texts i' = texts i) (hw : widths i) : widths i' := by
  simp only [texts, Prod.mk.injEq] at h
  unfold widths
  rw [h.1, h.2.1, h.2.2.1, h.2.2.2]
  exact hw

theorem fetchUser_noinit {e : Env} {db : Db} {u : User} (hno : ∀ p, e.fault p ≠ some .cryptokiNotInitialized) :
    db.fetchUser e u ≠ .error .cryptokiNotInitialized := by
  intro h
  unfold Db.fetchUser at h
  split at h
  · rename_i hf; injection h with h; subst h; exact hno [] hf
  · simp only at h
    repeat' split at h
    all_goals first | (cases h; done) | skip
    all_goals
      rename_i h1
      injection h with h
      subst h
      repeat' split at h1
      all_goals cases h1

/-- What a token that is set up shows. -/
theorem new_txt {e : Env} {db : Db} {cfg : TokCfg} {t : Token} (h : Token.new C e db cfg = .ok t) :
    widths t.info ∧ t.store.db = db ∧
      (plain e → (AMap.keys db.metaT).Nodup → db.ready = true → ∀ v, v ≠ [] → AMap.get db.metaT .label = some v →
        t.info.label = copySized v (List.replicate 32 0)) := by
  unfold Token.new at h
  extract_lets src t0 tf sf t' at h
  have h1 : ∀ t1, t' = .ok t1 → widths t1.info ∧ t1.store.db = db ∧ t1.logged = none ∧
      (plain e → (AMap.keys db.metaT).Nodup → db.ready = true → ∀ v, v ≠ [] → AMap.get db.metaT .label = some v →
        t1.info.label = copySized v (List.replicate 32 0)) := by
    intro t1 h1
    simp only [t', tf, sf, t0, src] at h1
    split at h1
    · rename_i info ho
      injection h1 with h1
      rw [← h1]
      unfold Store.open at ho
      split at ho
      · cases ho
      · split at ho
        · cases ho
        · split at ho
          · cases ho
          · rename_i i2 hf
            split at ho
            · cases ho
            · rename_i f _
              injection ho with ho
              rw [← ho]
              simp only [Token.fillInfo]
              unfold Db.fetchTokenInfo at hf
              split at hf
              · cases hf
              · refine ⟨show widths i2 from loadInfoRows_widths widths_default hf, trivial, trivial, fun _ hn hr v hv hg => ?_⟩
                exact loadInfoRows_label hn widths_default hv hg hf
    · rename_i ho
      injection h1 with h1
      rw [← h1]
      refine ⟨widths_default, rfl, rfl, fun hp hn hr v hv hg => ?_⟩
      have hno : ∀ p, (e.sub 0).fault p ≠ some .cryptokiNotInitialized := fun p hx =>
        (plain_sub hp 0 p _ hx).2.2 rfl
      exfalso
      unfold Store.open at ho
      split at ho
      · rename_i hf; injection ho with ho; subst ho; exact hno [0] hf
      · split at ho
        · rename_i r hf
          injection ho with ho; subst ho
          unfold Db.isInitialized at hf
          split at hf
          · rename_i hx; injection hf with hf; subst hf; exact hno [1] hx
          · rw [show (⟨db, Aci.new true⟩ : Store).db.ready = true from hr] at hf; cases hf
        · split at ho
          · rename_i r hf
            injection ho with ho; subst ho
            unfold Db.fetchTokenInfo at hf
            split at hf
            · rename_i hx; injection hf with hf; subst hf; exact hno [2] hx
            · exact loadInfoRows_err hf
          · split at ho
            · rename_i r hf
              injection ho with ho; subst ho
              unfold Store.initPinFlags at hf
              split at hf
              · rename_i h2; injection hf with hf; subst hf
                exact fetchUser_noinit (fun p => hno (3 :: 0 :: p)) h2
              · simp only at hf
                split at hf
                · cases hf
                · rename_i h2
                  split at hf
                  · cases hf
                  · injection hf with hf; subst hf
                    exact fetchUser_noinit (fun p => hno (3 :: 1 :: p)) h2
            · cases ho
    · cases h1
  clear_value t'
  cases t' with
  | error r => cases h
  | ok t1 =>
    obtain ⟨g1, g2, g3, g4⟩ := h1 t1 rfl
    simp only at h
    have b1 := internal_store (C := C) (e.sub 1) t1 g3
    have b2 := internal_info (C := C) (e.sub 1) t1
    generalize t1.internalInit C (e.sub 1) = p at b1 b2 h
    obtain ⟨r, t2⟩ := p
    cases r with
    | error r => cases h
    | ok _ =>
      injection h with h
      rw [← h]
      simp only at b1 b2 ⊢
      rw [b1, b2]
      exact ⟨g1, g2, g4⟩

theorem prim_widths {k : Nat} {D : Nat → Prop} {N : Obj → Prop} {I : Prop} (a b : Token) (x : TPrim C k D N I W a b)
    (h : widths a.info) : widths b.info := by
  cases x with
  | act x => exact texts_widths (act_txt x).txt h
  | login e ut pin => exact texts_widths (login_txt e a ut pin).txt h
  | logout e hd => exact texts_widths (logout_txt e a).txt h
  | drop n hd => exact h
  | initTok e pin label hi => exact (initToken_txt e a pin label).1 h

theorem slot_widths (tr : Trace) (s : St) (hi : Inv s) (h : ∀ i sl, AMap.get s.slots i = some sl → widths sl.token.info) :
    ∀ i sl, AMap.get (run M C O s tr).slots i = some sl → widths sl.token.info := by
  induction tr generalizing s with
  | nil => exact h
  | cons p tr ih =>
    refine ih _ (inv_step M O p.1 s p.2 hi) ?_
    intro i sl hs'
    obtain ⟨e, c⟩ := p
    simp only at hs'
    by_cases h1 : c = .finalize
    · subst h1
      simp only [step, fnFinalize] at hs'
      split at hs'
      · exact h i sl hs'
      · cases hs'
    by_cases h2 : c = .crash
    · subst h2; cases hs'
    cases hs : AMap.get s.slots i with
    | some sl0 =>
      obtain ⟨sl2, hs2, x⟩ := step_path (M := M) (O := O) (e := e) hi hs h1 h2
      rw [hs2] at hs'; injection hs' with hs'; subst hs'
      exact x.inv prim_widths (h i _ hs)
    | none =>
      obtain ⟨e', cfg, conf, hcc, hmem, _, hnew⟩ := step_new hs hs'
      exact (new_txt hnew).1

theorem info_slot {e : Env} {s : St} {i : Nat} {info : TokInfo} (h : (step M C O e s (.getTokenInfo i)).1 = .tokInfo info) :
    ∃ sl, AMap.get s.slots i = some sl ∧ sl.token.info = info := by
  simp only [step, St.getSlot] at h
  repeat' split at h
  all_goals first | (cases h; done) | skip
  rename_i h1
  split at h1
  · cases h1
  · split at h1
    · injection h1 with h1; injection h with h; rename_i h2; exact ⟨_, h2, by rw [h1]; exact h⟩
    · cases h1

/-- In every reachable state each text of C_GetTokenInfo has the width of its field, whatever the files held. -/
theorem C35_widths (d : List (Nat × Db)) (tr : Trace) (e : Env) (i : Nat) (info : TokInfo)
    (h : (step M C O e (after M C O d tr) (.getTokenInfo i)).1 = .tokInfo info) : widths info := by
  obtain ⟨sl, hs, rfl⟩ := info_slot h
  exact slot_widths tr (St.init d) (inv_empty d 0) (fun _ _ h => by cases h) i sl hs

/-- The label of slot `i`, on disk and in the process. -/
structure Labelled (L : Bytes) (s : St) (i : Nat) : Prop where
  nd : (AMap.keys (dbAt s i).metaT).Nodup
  ready : (dbAt s i).ready = true
  row : AMap.get (dbAt s i).metaT .label = some L
  live : ∀ sl, AMap.get s.slots i = some sl → sl.token.info.label = L

theorem labelled_step {L : Bytes} (hL : copySized L (List.replicate 32 0) = L) (hne : L ≠ []) {e : Env} {s : St} {c : Call} {i : Nat} (hi : Inv s)
    (hp : plain e) (hc : ∀ p l, c ≠ .initToken i p l) (hg : Labelled L s i) : Labelled L (step M C O e s c).2 i := by
  have fin : Labelled L ⟨[], [], 0, s.files⟩ i :=
    ⟨by rw [dbAt_files hi]; exact hg.nd, by rw [dbAt_files hi]; exact hg.ready, by rw [dbAt_files hi]; exact hg.row, fun sl h => by cases h⟩
  by_cases h1 : c = .finalize
  · subst h1
    simp only [step, fnFinalize]
    split
    · exact hg
    · exact fin
  by_cases h2 : c = .crash
  · subst h2; exact fin
  cases hs : AMap.get s.slots i with
  | some sl =>
    obtain ⟨sl2, hs2, p⟩ := step_path (M := M) (C := C) (O := O) (e := e) hi hs h1 h2
    have x : SameTxt sl.token sl2.token := by
      refine p.rel SameTxt.refl (fun _ _ _ => .trans) fun a b y => ?_
      cases y with
      | act y => exact act_txt y
      | login e ut pin => exact login_txt e a ut pin
      | logout e hd => exact logout_txt e a
      | drop n hd => exact ⟨.refl _, rfl⟩
      | initTok e pin label _ hq => obtain ⟨p, l, hq⟩ := hq; exact absurd hq (hc p l)
    obtain ⟨g1, g2, g3, g4⟩ := hg
    rw [dbAt_some hs] at g1 g2 g3
    refine ⟨?_, ?_, ?_, fun sl' h' => ?_⟩
    · rw [dbAt_some hs2]; exact x.db.nd g1
    · rw [dbAt_some hs2]; exact x.db.ready.trans g2
    · rw [dbAt_some hs2]; exact x.db.row.trans g3
    · rw [hs2] at h'; injection h' with h'; subst h'
      exact (congrArg Prod.fst x.txt).trans (g4 _ hs)
  | none =>
    cases hs' : AMap.get (step M C O e s c).2.slots i with
    | none =>
      have : dbAt (step M C O e s c).2 i = dbAt s i := by
        unfold dbAt; rw [hs', hs, step_disks h1 h2]
      exact ⟨by rw [this]; exact hg.nd, by rw [this]; exact hg.ready, by rw [this]; exact hg.row, fun sl h => by rw [hs'] at h; cases h⟩
    | some sl =>
      obtain ⟨_, _, conf, hcc, _, _, _⟩ := step_new hs hs'
      subst hcc
      have : ∃ k cfg, Token.new C (e.sub k) (dbAt s i) cfg = .ok sl.token := by
        have hd : AMap.get s.disks i = some (dbAt s i) ∨ AMap.get s.disks i = none ∧ dbAt s i = Db.empty := by
          unfold dbAt; rw [hs]; cases AMap.get s.disks i with
          | none => exact .inr ⟨rfl, rfl⟩
          | some d => exact .inl rfl
        have h : AMap.get (fnInitialize C e s conf).2.slots i = some sl := hs'
        unfold fnInitialize at h
        by_cases hr : s.ready = true
        · rw [if_pos hr] at h
          obtain ⟨k, cfg, hn⟩ := initSlots_sub hs h
          exact ⟨k, cfg, by rcases hd with hd | ⟨hd, h0⟩ <;> rw [hd] at hn <;> first | exact hn | exact h0 ▸ hn⟩
        · rw [if_neg hr] at h
          obtain ⟨k, cfg, hn⟩ := initSlots_sub (s := { s with slots := [], smap := [], next := 1 }) rfl h
          exact ⟨k, cfg, by rcases hd with hd | ⟨hd, h0⟩ <;> simp only [hd] at hn <;> first | exact hn | exact h0 ▸ hn⟩
      obtain ⟨k, cfg, hn⟩ := this
      obtain ⟨_, n2, n3⟩ := new_txt hn
      refine ⟨?_, ?_, ?_, fun sl' h' => ?_⟩
      · rw [dbAt_some hs', n2]; exact hg.nd
      · rw [dbAt_some hs', n2]; exact hg.ready
      · rw [dbAt_some hs', n2]; exact hg.row
      · rw [hs'] at h'; injection h' with h'; subst h'
        exact (n3 (plain_sub hp k) hg.nd hg.ready L hne hg.row).trans hL

theorem fixedWidth_again {l : Bytes} (h : l.length = 32) :
    fixedWidth 32 (fixedWidth 32 l) = fixedWidth 32 l := by
  have e0 : ∀ x : Bytes, x.length = 32 → x.getLast? ≠ some 0 → fixedWidth 32 x = x := by
    intro x hx hn
    unfold fixedWidth
    simp only [if_neg hn]
    rw [List.take_append_of_le_length (by omega), List.take_of_length_le (by omega)]
  by_cases hn : l.getLast? = some 0
  · have : fixedWidth 32 l = l.dropLast ++ [0x20] := by
      unfold fixedWidth
      simp only [if_pos hn]
      rw [List.take_append, List.take_replicate, List.take_of_length_le (by simp; omega)]
      simp [h]
    rw [this]
    refine e0 _ (by simp [h]) ?_
    simp
  · rw [e0 l h hn, e0 l h hn]

theorem label_given {label : Option Bytes} (hl : ∀ l, label = some l → l.length = 32) :
    ∃ lab : Bytes, (∀ e s i pin, fnInitToken C e s i pin label = fnInitToken C e s i pin (some lab)) ∧ lab.length = 32 ∧
      fixedWidth 32 lab = fixedWidth 32 (label.getD []) := by
  cases label with
  | none => exact ⟨List.replicate 32 0x20, fun _ _ _ _ => rfl, rfl, by decide +kernel⟩
  | some l => exact ⟨l, fun _ _ _ _ => rfl, hl l rfl, rfl⟩

/-- **The label of a token**: C_InitToken of slot `i` succeeds with a label of 32 bytes, or none.  After every later run without another
C_InitToken of `i` -- through C_Finalize, crashes, logins, PIN changes, failing storage -- C_GetTokenInfo shows the label cut and padded
to its field. -/
theorem C35_label (d : List (Nat × Db)) (tr later : Trace) (e : Env) (i : Nat) (pin : Bytes) (label : Option Bytes)
    (hl : ∀ l, label = some l → l.length = 32)
    (hok : (step M C O e (after M C O d tr) (.initToken i pin label)).1 = .ok)
    (hp : ∀ p ∈ later, plain p.1) (hc : ∀ p ∈ later, ∀ pin l, p.2 ≠ .initToken i pin l)
    (e' : Env) (info : TokInfo)
    (h : (step M C O e' (after M C O d (tr ++ (e, .initToken i pin label) :: later)) (.getTokenInfo i)).1 = .tokInfo info) :
    info.label = fixedWidth 32 (label.getD []) := by
  have hi := inv_reach M O d tr (C := C)
  generalize hL : fixedWidth 32 (label.getD []) = L
  obtain ⟨lab, hlab, hll, hlL⟩ := label_given (C := C) hl
  rw [hL] at hlL
  have hne : lab ≠ [] := fun h => by rw [h] at hll; cases hll
  have hL1 : copySized lab (List.replicate 32 0) = L := by rw [(C35_copy lab _).2 hne]; exact hlL
  have hL2 : L.length = 32 := by rw [← hL1]; exact copySized_length _ _
  have hLne : L ≠ [] := fun h => by rw [h] at hL2; cases hL2
  have hLL : copySized L (List.replicate 32 0) = L := by
    rw [(C35_copy L _).2 hLne]
    show fixedWidth 32 L = L
    rw [← hlL]; exact fixedWidth_again hll
  have start : Labelled L (step M C O e (after M C O d tr) (.initToken i pin label)).2 i := by
    generalize after M C O d tr = s at hok ⊢
    revert hok
    simp only [step]
    rw [hlab]
    unfold fnInitToken
    split
    · nofun
    · rename_i sl hs
      have hs : AMap.get s.slots i = some sl := by
        unfold St.getSlot at hs
        repeat' split at hs
        all_goals first | (cases hs; done) | (injection hs with hs; subst hs; assumption)
      split
      · nofun
      · simp only
        have a := (initToken_txt (C := C) e sl.token pin lab).2 hne
        rw [hL1] at a
        generalize sl.token.initToken C e pin lab = p at a
        obtain ⟨r, t⟩ := p
        cases r with
        | error r =>
          simp only
          cases r <;> nofun
        | ok _ =>
          intro _
          obtain ⟨a1, a2, a3, a4⟩ := a rfl
          have hn := (get_setSlot (sl' := ⟨t, sl.sessions⟩) hs).trans (if_pos rfl)
          exact ⟨by rw [dbAt_some hn]; exact a2, by rw [dbAt_some hn]; exact a3, by rw [dbAt_some hn]; exact a4,
            fun sl' h' => by rw [hn] at h'; injection h' with h'; subst h'; exact a1⟩
  have rest : ∀ (later : Trace) (s : St), Inv s → Labelled L s i → (∀ p ∈ later, plain p.1) →
      (∀ p ∈ later, ∀ pin l, p.2 ≠ .initToken i pin l) → Labelled L (run M C O s later) i := by
    intro later
    induction later with
    | nil => intro s _ h _ _; exact h
    | cons p later ih =>
      intro s hi h hp hc
      exact ih _ (inv_step M O p.1 s p.2 hi)
        (labelled_step hLL hLne hi (hp p (List.mem_cons_self ..)) (hc p (List.mem_cons_self ..)) h)
        (fun q hq => hp q (List.mem_cons_of_mem _ hq)) fun q hq => hc q (List.mem_cons_of_mem _ hq)
  obtain ⟨sl, hs, rfl⟩ := info_slot h
  unfold after at hs
  rw [run_append] at hs
  exact (rest later _ (inv_step M O e _ _ hi) start hp hc).live sl hs

/-! ## A violation and examples -/

/-- The texts of C_GetSlotInfo, for every slot configured with texts that are not empty. -/
theorem C35_slot (c : CSlot) (desc manu : Bytes) (hd : desc ≠ []) (hm : manu ≠ []) :
    ({ c with desc := some desc, manu := some manu } : CSlot).texts = (fixedWidth 64 desc, fixedWidth 32 manu) := by
  simp only [CSlot.texts]
  rw [(C35_copy desc _).2 hd, (C35_copy manu _).2 hm]
  rfl

/-- A long description and a short manufacturer. -/
example : (⟨1, some (List.replicate 70 65), some [66, 0], none, none, none, none⟩ : CSlot).texts =
    (List.replicate 64 65, 66 :: List.replicate 31 32) := by decide +kernel

/-- An empty text is not padded: whatever the slot, an empty description shows 64 NUL bytes. -/
theorem C35_empty_violation (c : CSlot) : ({ c with desc := some [] } : CSlot).texts.1 = List.replicate 64 0 ∧
    fixedWidth 64 [] = List.replicate 64 0x20 := by
  constructor
  · simp only [CSlot.texts]; decide +kernel
  · decide +kernel

/-- A token labelled `A` and NUL bytes, then a crash and a restart. -/
def exLab : Bytes := 65 :: List.replicate 31 0
def exLabRun : Trace := [(exEnv 0, .initialize exConf)]
def exLabLater : Trace := [(exEnv 2, .crash), (exEnv 3, .initialize exConf)]

/-- The hypotheses of `C35_label` are met and the answer is given. -/
example : (step exMechs exCrypto exOracle (exEnv 1) (exRun exLabRun) (.initToken 7 exSoPin (some exLab))).1 = .ok ∧
    (step exMechs exCrypto exOracle (exEnv 4) (exRun (exLabRun ++ (exEnv 1, .initToken 7 exSoPin (some exLab)) :: exLabLater))
      (.getTokenInfo 7)).1 matches .tokInfo ⟨65 :: _, _, _, _, _⟩ := by decide +kernel

/-- Cut, padded, and a trailing NUL dropped. -/
example : copySized [104, 105, 0] [0, 0, 0, 0] = [104, 105, 32, 32] ∧ copySized [104, 105, 106] [0, 0] = [104, 105] := by decide +kernel

end Kry
