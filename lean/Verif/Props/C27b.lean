import Verif.Proofs.UpdateFetch
import Verif.Proofs.RegularTok
import Verif.Proofs.Given
import Verif.Proofs.Sealing
import Verif.Props.C25

/-!
# C27, continued: copies, changed attributes, unwrapped and decapsulated keys

`C27_set`: after C_SetAttributeValue a token object reads with the new values of the attributes named and the old ones of all others.
`C27_copied`: a copy on the token reads with the values of its source, those of the template replaced.
`C27_unwrapped`, `C27_encapsulated`, `C27_decapsulated`: what these calls made of the bytes and the template reads back.
`C27_pair`, `C27_derived`: the keys of a pair and a derived key read as the mechanism made them.
Each holds along every later run that leaves the object alone (`ReadsOn`).

`C27_date_violation`: an empty date is not read back.
-/

namespace Kry
open Spec

/-- From state `s` on, and as long as nobody destroys, sets or replaces it, the object with unique id `u` of slot `i` reads as `o`. -/
def Spec.ReadsOn (M : Mechs) (C : Crypto) (O : Oracle) (F : Factory) (o : Obj) (u : Bytes) (s : St) (i : Nat) : Prop :=
  ∀ tr, leavesId M C O i u s tr → ∀ n, standsFor (run M C O s tr) i n u → sessionObj (run M C O s tr) i n = none →
    loggedInAt (run M C O s tr) i → ReadsAs M C O F o (run M C O s tr) i n

/-- The value that stands for the bytes given for an attribute of this kind: a boolean is one byte 0 or 1, a missing date all zeros. -/
def Spec.meant (k : AttrType) (v : Bytes) : Bytes :=
  match k with
  | .bool => if v = [0] then [0] else [1]
  | .date => if v = [] then [48, 48, 48, 48, 48, 48, 48, 48] else v
  | _ => v

/-- `o'` has the values that the template gives and, apart from the types in `skip`, those of `o` for the rest. -/
structure Spec.TakesOver (skip : List Nat) (tm : Template) (o o' : Obj) : Prop where
  given : ∀ c ∈ tm, ∀ k, attrKind c.typ = some k → k ≠ .ignore → c.typ ∉ skip → value o' c.typ = some (meant k c.toBuf)
  rest : ∀ t, t ∉ skip → (∀ c ∈ tm, c.typ ≠ t) → value o' t = value o t

variable {M : Mechs} {C : Crypto} {O : Oracle}

theorem fromCk_meant {c : CkAttr} {a : Attr} {k : AttrType} (hk : attrKind c.typ = some k) (hi : k ≠ .ignore) (h : Attr.fromCk c = .ok a) :
    a.value = meant k c.toBuf := by
  unfold Attr.fromCk at h
  rw [hk] at h
  obtain ⟨ty, p⟩ := c
  cases k with
  | bool =>
    simp only [CkAttr.toBool] at h
    by_cases hl : p.len ≠ 1
    · rw [if_pos hl] at h; cases h
    · rw [if_neg hl] at h
      cases p with
      | null n => cases h
      | data bs =>
        simp only [PVal.len, Decidable.not_not] at hl
        obtain ⟨b, rfl⟩ : ∃ b, bs = [b] := by
          cases bs with
          | nil => cases hl
          | cons b bs =>
            cases bs with
            | nil => exact ⟨b, rfl⟩
            | cons _ _ => simp at hl
        injection h with h
        rw [← h]
        by_cases hb : b = 0
        · subst hb; rfl
        · simp [Attr.ofBool, meant, CkAttr.toBuf, hb]
  | num =>
    simp only [CkAttr.toUlong] at h
    by_cases hl : p.len ≠ ulongSize
    · rw [if_pos hl] at h; cases h
    · rw [if_neg hl] at h
      cases p with
      | null n => cases h
      | data bs =>
        simp only [PVal.len, Decidable.not_not] at hl
        injection h with h
        rw [← h]
        exact ulongBytes_fromLE bs hl
  | string =>
    simp only [CkAttr.toStr] at h
    by_cases hl : p.len = 0
    · rw [if_pos hl] at h
      injection h with h
      rw [← h]
      cases p with
      | null n => rfl
      | data bs => exact (List.length_eq_zero_iff.1 hl).symm
    · rw [if_neg hl] at h
      cases p with
      | null n => cases h
      | data bs =>
        simp only at h
        split at h
        · rename_i s hs
          split at hs
          · injection hs with hs
            injection h with h
            rw [← h, ← hs]; rfl
          · cases hs
        · cases h
  | bytes => injection h with h; rw [← h]; rfl
  | ulongArray => injection h with h; rw [← h]; rfl
  | date =>
    simp only [CkAttr.toDate] at h
    by_cases hl : p.len = 0
    · rw [if_pos hl] at h
      injection h with h
      rw [← h]
      cases p with
      | null n => rfl
      | data bs => rw [List.length_eq_zero_iff.1 hl]; rfl
    · rw [if_neg hl] at h
      cases p with
      | null n => cases h
      | data bs =>
        have hne : bs ≠ [] := fun e => hl (by rw [e]; rfl)
        simp only at h
        split at h
        · rename_i d hd
          injection h with h
          rw [← h]
          unfold vecToDate at hd
          repeat' split at hd
          all_goals first | (cases hd; done) | skip
          injection hd with hd
          rw [← hd]
          show bs = if bs = [] then _ else bs
          rw [if_neg hne]
        · cases h
  | deny => cases h
  | ignore => exact absurd rfl hi

theorem takes_setAllCk {tm : Template} {o o' : Obj} (hn : (tm.map CkAttr.typ).Nodup) (h : setAllCk o tm = .ok o') : TakesOver [] tm o o' := by
  refine ⟨fun c hc k hk hi _ => ?_, fun t _ ht => ?_⟩
  · obtain ⟨a, ha, hf⟩ := setAllCk_at hn h hc
    rw [value_eq, hf]
    exact congrArg some (fromCk_meant hk hi ha)
  · rw [value_eq, value_eq, setAllCk_find h ht]

/-! ## C_SetAttributeValue -/

/-- C27 for C_SetAttributeValue. -/
theorem C27_set (hM : noCounter M) (hI : HonoursId M) (tr₁ : Trace) (hp : ∀ p ∈ tr₁, plain p.1)
    (hm : ∀ p ∈ tr₁, noMerge p.2) (e : Env) (he : plain e) (i h n : Nat) (u : Bytes) (tm : Template) (hset : plainSet tm)
    (ho : onSlot M C O (after M C O [] tr₁) h i) (hn : standsFor (after M C O [] tr₁) i n u)
    (hse : sessionObj (after M C O [] tr₁) i n = none)
    (hok : (step M C O e (after M C O [] tr₁) (.sess h (.setAttr n tm))).1 = .ok) :
    ∃ o o' F, (∃ sl, AMap.get (after M C O [] tr₁).slots i = some sl ∧ sl.token.getObjectByHandle C (e.sub 0) n = .ok o) ∧
      objFactory o = .ok F ∧ TakesOver [] tm o o' ∧
      ReadsOn M C O F o' u (step M C O e (after M C O [] tr₁) (.sess h (.setAttr n tm))).2 i := by
  obtain ⟨K, v, s1⟩ := stays_reach (M := M) (C := C) (O := O) tr₁ hp hm i u
  have hi := s1.inv
  obtain ⟨sl, x, hg, hs, hx⟩ := getSession_live hi ((onSlot_iff hi).1 ho)
  have hg : (after M C O [] tr₁).getSession h = .ok (i, sl, x) := hg
  have ok := s1.tinv.slots i sl hs
  obtain ⟨_, g3, g4⟩ := hn
  rw [hs] at g3; injection g3 with g3; subst g3
  have se : AMap.get sl.token.sess n = none := by
    unfold sessionObj at hse; rw [hs] at hse; exact hse
  have shape : ∃ o st, sl.token.getObjectByHandle C (e.sub 0) n = .ok o ∧ sl.token.store.fetch C (e.sub 0) sl.token.handles n [] = .ok o ∧
      sl.token.loggedIn = true ∧ (∀ c ∈ tm, c.typ ≠ CKA_UNIQUE_ID) ∧
      sl.token.store.update C ((e.sub 1).sub 1) sl.token.handles n tm = (.ok (), st) ∧
      ∃ sl', AMap.get (step M C O e (after M C O [] tr₁) (.sess h (.setAttr n tm))).2.slots i = some sl' ∧
        sl'.token = { sl.token with store := st } := by
    unfold step at hok ⊢
    simp only [hg, sessStep] at hok ⊢
    unfold fnSetAttr at hok ⊢
    by_cases hin : (!sl.token.isInitialized) = true
    · rw [if_pos hin] at hok; cases hok
    · rw [if_neg hin] at hok ⊢
      cases hget : sl.token.getObjectByHandle C (e.sub 0) n with
      | error r => rw [hget] at hok; cases hok
      | ok o =>
        rw [hget] at hok
        simp only at hok ⊢
        have hfetch : sl.token.store.fetch C (e.sub 0) sl.token.handles n [] = .ok o := by
          unfold Token.getObjectByHandle at hget
          rw [se] at hget
          simp only at hget
          split at hget
          · cases hget
          · rename_i o2 ho2
            split at hget
            · cases hget
            · injection hget with hget; rw [← hget]; exact ho2
        by_cases c1 : (o.isToken && !sl.token.loggedIn) = true
        · rw [if_pos c1] at hok; cases hok
        · rw [if_neg c1] at hok ⊢
          by_cases c2 : (o.isToken && !x.isWritable) = true
          · rw [if_pos c2] at hok; cases hok
          · rw [if_neg c2] at hok ⊢
            unfold Token.setObjectAttrs at hok ⊢
            rw [se] at hok ⊢
            simp only at hok ⊢
            by_cases c3 : (!sl.token.loggedIn) = true
            · rw [if_pos c3] at hok; cases hok
            · rw [if_neg c3] at hok ⊢
              cases hf : sl.token.store.fetch C ((e.sub 1).sub 0) sl.token.handles n [CKA_CLASS, CKA_KEY_TYPE, CKA_MODIFIABLE] with
              | error r => rw [hf] at hok; cases hok
              | ok o3 =>
                rw [hf] at hok
                simp only at hok ⊢
                cases hF : objFactory o3 with
                | error r => rw [hF] at hok; cases hok
                | ok F =>
                  rw [hF] at hok
                  simp only at hok ⊢
                  by_cases c4 : (!o3.isModifiable) = true
                  · rw [if_pos c4] at hok; cases hok
                  · rw [if_neg c4] at hok ⊢
                    cases hc : checkSetAttributes F.attrs tm with
                    | error r => rw [hc] at hok; cases hok
                    | ok _ =>
                      rw [hc] at hok
                      simp only at hok ⊢
                      generalize hup : sl.token.store.update C ((e.sub 1).sub 1) sl.token.handles n tm = p at hok ⊢
                      obtain ⟨r, st⟩ := p
                      cases r with
                      | error r => cases hok
                      | ok y =>
                        exact ⟨o, st, rfl, hfetch, by simpa using c3, checkSet_noUid hF hc, rfl, _, (get_setSlot hs).trans (if_pos rfl), rfl⟩
  obtain ⟨o, st, hget, hfetch, hlog, hnu, hup, sl', hs', htok⟩ := shape
  obtain ⟨F, u', r, o', hF, hgu, hrow, hall, hread⟩ := update_fetch ok hset hnu hfetch hup
  rw [g4] at hgu; injection hgu with hgu; subst hgu
  refine ⟨o, o', F, ⟨sl, hs, hget⟩, hF, takes_setAllCk hset.1 hall, ?_⟩
  intro tr₂ hl n₂ hn₂ hse₂ hw
  obtain ⟨on, a⟩ := s1.agree
  obtain ⟨π, hv⟩ := s1.vault
  obtain ⟨K', v', π', ini, t1, _, _, _, _, t6⟩ := step_pins M O (.sess h (.setAttr n tm)) s1.inv a he hv
  obtain ⟨rfl, rfl⟩ := t6 (by intro _ _ h; cases h)
  have s2 : Stays C u (some r) K' v' (step M C O e (after M C O [] tr₁) (.sess h (.setAttr n tm))).2 i :=
    ⟨inv_step M O e _ _ s1.inv, hinv_step M O e _ _ s1.inv s1.hinv, tinv_step M O e _ _ s1.inv s1.tinv, ⟨_, agree_step M O e _ s1.inv a⟩,
      ⟨by rw [dbAt_some hs', htok]; exact hrow, noDedup_step s1.inv (by trivial)
        (fun j slj hj => noDedup_run tr₁ (inv_empty [] 0) hm (fun i sl h => by cases h) j slj hj) i⟩, ⟨π', t1⟩⟩
  have s3 := stays_run hM hI tr₂ hl s2
  unfold Token.loggedIn at hlog
  obtain ⟨w, hw'⟩ := Option.isSome_iff_exists.1 hlog
  exact reads_of s3 (logged_aci (hv.2 sl hs) hw') hread hn₂ hse₂ hw

/-! ## C_CopyObject -/

theorem applyTemplate_set {tm : Template} {o : Obj} (h : (applyTemplate o tm).1 = .ok ()) : setAllCk o tm = .ok (applyTemplate o tm).2 := by
  induction tm generalizing o with
  | nil => rfl
  | cons c tm ih =>
    unfold applyTemplate at h ⊢
    unfold setAllCk
    cases hc : Attr.fromCk c with
    | error r => rw [hc] at h; cases h
    | ok a =>
      rw [hc] at h
      simp only at h ⊢
      cases ho : o.setAttr a with
      | error r => rw [ho] at h; cases h
      | ok o1 =>
        rw [ho] at h
        simp only at h ⊢
        exact ih h

theorem takes_copy {uid : Bytes} {o o' : Obj} {tm : Template} (hr : Regular o) (hn : (tm.map CkAttr.typ).Nodup)
    (h : factoriesCopy uid o tm = .ok o') : TakesOver [CKA_UNIQUE_ID, CKA_ALWAYS_SENSITIVE, CKA_NEVER_EXTRACTABLE] tm o o' := by
  obtain ⟨F, _, _, _, h1, rfl⟩ := factoriesCopy_ok h
  have t := takes_setAllCk hn (applyTemplate_set h1)
  have fix : ∀ t, t ∉ [CKA_UNIQUE_ID, CKA_ALWAYS_SENSITIVE, CKA_NEVER_EXTRACTABLE] →
      value (copyFixAlwaysSensitive o (copyFixNeverExtractable o (applyTemplate (o.blindCopy uid) tm).2)) t =
        value (applyTemplate (o.blindCopy uid) tm).2 t := by
    intro t ht
    simp only [List.mem_cons, List.not_mem_nil, or_false, not_or] at ht
    rw [value_eq, value_eq, find_copyFixAS _ _ _ ht.2.1, find_copyFixNE _ _ _ ht.2.2]
  refine ⟨fun c hc k hk hi hs => ?_, fun t' hs ht => ?_⟩
  · rw [fix _ hs]
    exact t.given c hc k hk hi (by simp)
  · rw [fix _ hs, t.rest t' (by simp) ht, value_eq, value_eq, find_blindCopy]
    by_cases hcl : t' = CKA_CLASS
    · rw [if_pos hcl, hcl]
      cases hx : o.find CKA_CLASS with
      | none => exact absurd hx hr.has
      | some a => rw [hr.cls a (find_mem hx) (find_typ hx)]
    · rw [if_neg hcl, if_neg (fun e => hs (by rw [e]; simp))]

theorem rinv_reach (hR : RegularMechs M O) (hP : plainMechs M) (tr : Trace) (hc : ∀ p ∈ tr, plainCall p.2) : RInv (after M C O [] tr) := by
  have all : ∀ (tr : Trace) (s : St), (∀ p ∈ tr, plainCall p.2) → Inv s → TInv s → RInv s → RInv (run M C O s tr) := by
    intro tr
    induction tr with
    | nil => exact fun s _ _ _ h => h
    | cons p tr ih =>
      intro s hc h1 h2 h3
      exact ih _ (fun q hq => hc q (List.mem_cons_of_mem _ hq)) (inv_step M O p.1 s p.2 h1) (tinv_step M O p.1 s p.2 h1 h2)
        (rinv_step hR hP p.1 s p.2 (hc p (List.mem_cons_self ..)) h1 h2 h3)
  exact all tr _ hc (inv_empty [] 0) (tinv_init nofun) (rinv_init [])

/-- C27 for C_CopyObject. -/
theorem C27_copied (hM : noCounter M) (hI : HonoursId M) (hR : RegularMechs M O) (hP : plainMechs M) (tr₁ : Trace) (hp : ∀ p ∈ tr₁, plain p.1)
    (hm : ∀ p ∈ tr₁, noMerge p.2 ∧ plainCall p.2) (e : Env) (he : plain e) (i h m n : Nat) (tm : Template)
    (htm : ∀ c ∈ tm, c.typ ≠ CKA_CLASS) (hn : (tm.map CkAttr.typ).Nodup)
    (ho : onSlot M C O (after M C O [] tr₁) h i)
    (hok : (step M C O e (after M C O [] tr₁) (.sess h (.copyObject m tm))).1 = .handle n) :
    ∃ o o', (∃ sl, AMap.get (after M C O [] tr₁).slots i = some sl ∧
        (AMap.get sl.token.sess m = some o ∨ sl.token.store.fetch C (e.sub 0) sl.token.handles m [] = .ok o)) ∧
      TakesOver [CKA_UNIQUE_ID, CKA_ALWAYS_SENSITIVE, CKA_NEVER_EXTRACTABLE] tm o o' ∧ (o'.isToken = true →
        ∃ F u, objFactory o' = .ok F ∧ o'.getStr CKA_UNIQUE_ID = .ok u ∧
          standsFor (step M C O e (after M C O [] tr₁) (.sess h (.copyObject m tm))).2 i n u ∧
          ReadsOn M C O F o' u (step M C O e (after M C O [] tr₁) (.sess h (.copyObject m tm))).2 i) := by
  have hi := inv_reach (C := C) M O [] tr₁
  obtain ⟨sl, x, hg, hs, hx⟩ := getSession_live hi ((onSlot_iff hi).1 ho)
  have hg : (after M C O [] tr₁).getSession h = .ok (i, sl, x) := hg
  have hri := rinv_reach (C := C) hR hP tr₁ (fun p h => (hm p h).2)
  have hti : TInv (after M C O [] tr₁) := tinv_reach M O (fun p h => by cases h) tr₁
  have shape : ∃ o o', (AMap.get sl.token.sess m = some o ∨ sl.token.store.fetch C (e.sub 0) sl.token.handles m [] = .ok o) ∧
      factoriesCopy (e.sub 1).uid o tm = .ok o' ∧
      ∃ sl', AMap.get (step M C O e (after M C O [] tr₁) (.sess h (.copyObject m tm))).2.slots i = some sl' ∧
        sl.token.insertObject C (e.sub 2) h o' = (.ok n, sl'.token) := by
    unfold step at hok ⊢
    simp only [hg, sessStep] at hok ⊢
    revert hok
    unfold fnCopy
    split
    · nofun
    split
    · nofun
    unfold Token.copyObject
    extract_lets obj
    cases hobj : obj with
    | error r => nofun
    | ok o =>
      have hsrc : AMap.get sl.token.sess m = some o ∨ sl.token.store.fetch C (e.sub 0) sl.token.handles m [] = .ok o := by
        simp only [obj] at hobj
        split at hobj
        · rename_i o1 h1
          injection hobj with hobj
          rw [← hobj]; exact .inl h1
        · split at hobj
          · cases hobj
          · rename_i o1 h1
            split at hobj
            · cases hobj
            · injection hobj with hobj
              rw [← hobj]; exact .inr h1
      simp only
      cases hc : factoriesCopy (e.sub 1).uid o tm with
      | error r => nofun
      | ok o' =>
        simp only
        intro hok
        refine ⟨o, o', hsrc, hc, ?_⟩
        generalize hins : sl.token.insertObject C (e.sub 2) h o' = p at hok ⊢
        obtain ⟨r, t'⟩ := p
        cases r with
        | error r => cases hok
        | ok n' =>
          injection hok with hok
          subst hok
          exact ⟨_, (get_setSlot hs).trans (if_pos rfl), rfl⟩
  obtain ⟨o, o', hsrc, hc, sl', hs', hins⟩ := shape
  have hro : Regular o := by
    rcases hsrc with h1 | h1
    · exact hri i sl hs _ _ h1
    · exact regular_fetch (hti.slots i sl hs) h1
  refine ⟨o, o', ⟨sl, hs, hsrc⟩, takes_copy hro hn hc, fun ht => ?_⟩
  exact stored_reads hM hI tr₁ hp (fun p h => (hm p h).1) he (by trivial) (by intro _ _ h; cases h) hs hs' (zero_copy hc) ht
    (regular_copy htm hc hro) ⟨rfl, rfl⟩ hins

/-! ## Keys that are unwrapped, encapsulated and decapsulated -/

theorem fresh_onToken {o : Obj} (hr : Regular o) (ht : o.isToken = true) : (fresh o).isToken = true := by
  rw [← ht]
  have e : (fresh o).attrs = o.attrs := oneUid_same _ hr.once
  unfold Obj.isToken Obj.boolOr Obj.find
  rw [e]

/-- C27 for C_UnwrapKey. -/
theorem C27_unwrapped (hM : noCounter M) (hI : HonoursId M) (hR : RegularMechs M O) (tr₁ : Trace) (hp : ∀ p ∈ tr₁, plain p.1)
    (hm : ∀ p ∈ tr₁, noMerge p.2) (e : Env) (he : plain e) (i h n m key : Nat) (q data : Bytes) (tm : Template) (ho : onSlot M C O (after M C O [] tr₁) h i)
    (hok : (step M C O e (after M C O [] tr₁) (.op h (.unwrap m q key data tm))).1 = .handle n) :
    ∃ F₀ k b o, keyTemplateFactory tm = .ok F₀ ∧ M.unwrap (e.sub 1) m q k data = .ok b ∧ importWrapped M (e.sub 2).uid F₀ b tm = .ok o ∧
      (∃ sl, AMap.get (after M C O [] tr₁).slots i = some sl ∧ sl.token.getObjectByHandle C (e.sub 0) key = .ok k) ∧ (o.isToken = true →
      ∃ F u, objFactory (fresh o) = .ok F ∧ (fresh o).getStr CKA_UNIQUE_ID = .ok u ∧
        standsFor (step M C O e (after M C O [] tr₁) (.op h (.unwrap m q key data tm))).2 i n u ∧
        ReadsOn M C O F (fresh o) u (step M C O e (after M C O [] tr₁) (.op h (.unwrap m q key data tm))).2 i) := by
  have hi := inv_reach (C := C) M O [] tr₁
  obtain ⟨sl, x, hg, hs, hx⟩ := getSession_live hi ((onSlot_iff hi).1 ho)
  have hg : (after M C O [] tr₁).getSession h = .ok (i, sl, x) := hg
  have shape : ∃ F₀ k b o, keyTemplateFactory tm = .ok F₀ ∧ M.unwrap (e.sub 1) m q k data = .ok b ∧ importWrapped M (e.sub 2).uid F₀ b tm = .ok o ∧
      sl.token.getObjectByHandle C (e.sub 0) key = .ok k ∧
      ∃ sl', AMap.get (step M C O e (after M C O [] tr₁) (.op h (.unwrap m q key data tm))).2.slots i = some sl' ∧
        sl.token.insertObject C (e.sub 3) h (fresh o) = (.ok n, sl'.token) := by
    unfold step at hok ⊢
    simp only [hg, opStep] at hok ⊢
    revert hok
    unfold fnUnwrap
    split; · nofun
    split; · nofun
    split; · nofun
    rename_i w hw
    split; · nofun
    split; · nofun
    rename_i F hF
    split; · nofun
    split; · nofun
    · nofun
    split; · nofun
    split; · nofun
    rename_i b hb
    split; · nofun
    rename_i o hi
    intro hok
    refine ⟨F, w, b, o, hF, hb, hi, hw, ?_⟩
    generalize hins : sl.token.insertObject C (e.sub 3) h (fresh o) = p at hok ⊢
    obtain ⟨r, t'⟩ := p
    cases r with
    | error r => cases hok
    | ok n' =>
      injection hok with hok
      subst hok
      exact ⟨_, (get_setSlot hs).trans (if_pos rfl), rfl⟩
  obtain ⟨F₀, k, b, o, hF₀, hb, him, hk, sl', hs', hins⟩ := shape
  refine ⟨F₀, k, b, o, hF₀, hb, him, ⟨sl, hs, hk⟩, fun ht => ?_⟩
  obtain ⟨_, hmem⟩ := keyTemplateFactory_mem hF₀
  have hro : Regular o := regular_import hR hmem him
  exact stored_reads hM hI tr₁ hp hm he (by trivial) (by intro _ _ h; cases h) hs hs' (zero_fresh o) (fresh_onToken hro ht) (regular_fresh hro) ⟨rfl, rfl⟩ hins

/-- C27 for C_EncapsulateKey. -/
theorem C27_encapsulated (hM : noCounter M) (hI : HonoursId M) (hR : RegularMechs M O) (tr₁ : Trace) (hp : ∀ p ∈ tr₁, plain p.1)
    (hm : ∀ p ∈ tr₁, noMerge p.2) (e : Env) (he : plain e) (i h n m key : Nat) (ct : Bytes) (out : Option Nat) (tm : Template) (ho : onSlot M C O (after M C O [] tr₁) h i)
    (hok : (step M C O e (after M C O [] tr₁) (.op h (.encapsulate m key tm out))).1 = .handleBytes n ct) :
    ∃ F₀ k b o, keyTemplateFactory tm = .ok F₀ ∧ M.encapsulate (e.sub 1) k = .ok (b, ct) ∧ importWrapped M (e.sub 2).uid F₀ b tm = .ok o ∧
      (∃ sl, AMap.get (after M C O [] tr₁).slots i = some sl ∧ sl.token.getObjectByHandle C (e.sub 0) key = .ok k) ∧ (o.isToken = true →
      ∃ F u, objFactory (fresh o) = .ok F ∧ (fresh o).getStr CKA_UNIQUE_ID = .ok u ∧
        standsFor (step M C O e (after M C O [] tr₁) (.op h (.encapsulate m key tm out))).2 i n u ∧
        ReadsOn M C O F (fresh o) u (step M C O e (after M C O [] tr₁) (.op h (.encapsulate m key tm out))).2 i) := by
  have hi := inv_reach (C := C) M O [] tr₁
  obtain ⟨sl, x, hg, hs, hx⟩ := getSession_live hi ((onSlot_iff hi).1 ho)
  have hg : (after M C O [] tr₁).getSession h = .ok (i, sl, x) := hg
  have shape : ∃ F₀ k b o, keyTemplateFactory tm = .ok F₀ ∧ M.encapsulate (e.sub 1) k = .ok (b, ct) ∧ importWrapped M (e.sub 2).uid F₀ b tm = .ok o ∧
      sl.token.getObjectByHandle C (e.sub 0) key = .ok k ∧
      ∃ sl', AMap.get (step M C O e (after M C O [] tr₁) (.op h (.encapsulate m key tm out))).2.slots i = some sl' ∧
        sl.token.insertObject C (e.sub 3) h (fresh o) = (.ok n, sl'.token) := by
    unfold step at hok ⊢
    simp only [hg, opStep] at hok ⊢
    revert hok
    unfold fnEncap
    split; · nofun
    split; · nofun
    split; · nofun
    rename_i w hw
    split; · nofun
    split; · nofun
    rename_i F hF
    split; · nofun
    split; · nofun
    split; · nofun
    split; · nofun
    split; · nofun
    split; · nofun
    rename_i b ct' hb
    split; · nofun
    rename_i o hi
    intro hok
    refine ⟨F, w, b, o, hF, ?_, hi, hw, ?_⟩
    · generalize sl.token.insertObject C (e.sub 3) h (fresh o) = p at hok
      obtain ⟨r, t'⟩ := p
      cases r with
      | error r => cases hok
      | ok n' =>
        injection hok with hok1 hok2
        subst hok2
        exact hb
    generalize hins : sl.token.insertObject C (e.sub 3) h (fresh o) = p at hok ⊢
    obtain ⟨r, t'⟩ := p
    cases r with
    | error r => cases hok
    | ok n' =>
      injection hok with hok
      subst hok
      exact ⟨_, (get_setSlot hs).trans (if_pos rfl), rfl⟩
  obtain ⟨F₀, k, b, o, hF₀, hb, him, hk, sl', hs', hins⟩ := shape
  refine ⟨F₀, k, b, o, hF₀, hb, him, ⟨sl, hs, hk⟩, fun ht => ?_⟩
  obtain ⟨_, hmem⟩ := keyTemplateFactory_mem hF₀
  have hro : Regular o := regular_import hR hmem him
  exact stored_reads hM hI tr₁ hp hm he (by trivial) (by intro _ _ h; cases h) hs hs' (zero_fresh o) (fresh_onToken hro ht) (regular_fresh hro) ⟨rfl, rfl⟩ hins

/-- C27 for C_DecapsulateKey. -/
theorem C27_decapsulated (hM : noCounter M) (hI : HonoursId M) (hR : RegularMechs M O) (tr₁ : Trace) (hp : ∀ p ∈ tr₁, plain p.1)
    (hm : ∀ p ∈ tr₁, noMerge p.2) (e : Env) (he : plain e) (i h n m key : Nat) (data : Bytes) (tm : Template) (ho : onSlot M C O (after M C O [] tr₁) h i)
    (hok : (step M C O e (after M C O [] tr₁) (.op h (.decapsulate m key data tm))).1 = .handle n) :
    ∃ F₀ k b o, keyTemplateFactory tm = .ok F₀ ∧ M.decapsulate (e.sub 1) k data = .ok b ∧ importWrapped M (e.sub 2).uid F₀ b tm = .ok o ∧
      (∃ sl, AMap.get (after M C O [] tr₁).slots i = some sl ∧ sl.token.getObjectByHandle C (e.sub 0) key = .ok k) ∧ (o.isToken = true →
      ∃ F u, objFactory (fresh o) = .ok F ∧ (fresh o).getStr CKA_UNIQUE_ID = .ok u ∧
        standsFor (step M C O e (after M C O [] tr₁) (.op h (.decapsulate m key data tm))).2 i n u ∧
        ReadsOn M C O F (fresh o) u (step M C O e (after M C O [] tr₁) (.op h (.decapsulate m key data tm))).2 i) := by
  have hi := inv_reach (C := C) M O [] tr₁
  obtain ⟨sl, x, hg, hs, hx⟩ := getSession_live hi ((onSlot_iff hi).1 ho)
  have hg : (after M C O [] tr₁).getSession h = .ok (i, sl, x) := hg
  have shape : ∃ F₀ k b o, keyTemplateFactory tm = .ok F₀ ∧ M.decapsulate (e.sub 1) k data = .ok b ∧ importWrapped M (e.sub 2).uid F₀ b tm = .ok o ∧
      sl.token.getObjectByHandle C (e.sub 0) key = .ok k ∧
      ∃ sl', AMap.get (step M C O e (after M C O [] tr₁) (.op h (.decapsulate m key data tm))).2.slots i = some sl' ∧
        sl.token.insertObject C (e.sub 3) h (fresh o) = (.ok n, sl'.token) := by
    unfold step at hok ⊢
    simp only [hg, opStep] at hok ⊢
    revert hok
    unfold fnDecap
    split; · nofun
    split; · nofun
    split; · nofun
    rename_i w hw
    split; · nofun
    split; · nofun
    rename_i F hF
    split; · nofun
    split; · nofun
    split; · nofun
    rename_i b hb
    split; · nofun
    rename_i o hi
    intro hok
    refine ⟨F, w, b, o, hF, hb, hi, hw, ?_⟩
    generalize hins : sl.token.insertObject C (e.sub 3) h (fresh o) = p at hok ⊢
    obtain ⟨r, t'⟩ := p
    cases r with
    | error r => cases hok
    | ok n' =>
      injection hok with hok
      subst hok
      exact ⟨_, (get_setSlot hs).trans (if_pos rfl), rfl⟩
  obtain ⟨F₀, k, b, o, hF₀, hb, him, hk, sl', hs', hins⟩ := shape
  refine ⟨F₀, k, b, o, hF₀, hb, him, ⟨sl, hs, hk⟩, fun ht => ?_⟩
  obtain ⟨_, hmem⟩ := keyTemplateFactory_mem hF₀
  have hro : Regular o := regular_import hR hmem him
  exact stored_reads hM hI tr₁ hp hm he (by trivial) (by intro _ _ h; cases h) hs hs' (zero_fresh o) (fresh_onToken hro ht) (regular_fresh hro) ⟨rfl, rfl⟩ hins

/-! ## Key pairs and derived keys -/

/-- A call after which the token of slot `i` has these rows for object `u`: how they read from then on. -/
theorem rows_reads (hM : noCounter M) (hI : HonoursId M) (tr₁ : Trace) (hp : ∀ p ∈ tr₁, plain p.1) (hm : ∀ p ∈ tr₁, noMerge p.2)
    {e : Env} (he : plain e) {c : Call} (hc : noMerge c) {i : Nat} (hini : ∀ p l, c ≠ .initToken i p l) {sl sl' : Slot} {o : Obj} {F : Factory}
    (hs : AMap.get (after M C O [] tr₁).slots i = some sl)
    (hs' : AMap.get (step M C O e (after M C O [] tr₁) c).2.slots i = some sl') {u : Bytes} {r : List (Nat × DbVal)}
    (hrow : rowsOf sl'.token.store.db.objs u = some r) (hlog : sl.token.loggedIn = true)
    (hread : ∀ {e2 : Env} {s2 : Store} {h2 : Handles} {n2 : Nat} {hints : List Nat}, TblOk s2.db.objs → rowsOf s2.db.objs u = some r →
        sameKey sl.token.store.aci s2.aci → h2.get n2 = some u → quiet e2 → (∀ t ∈ fetchHints hints, t < 2 ^ 32) →
        ∃ o2, s2.fetch C e2 h2 n2 hints = .ok o2 ∧ o2.handle = n2 ∧ objFactory o2 = .ok F ∧
          ∀ t, o2.find t = if (fetchHints hints = [] ∨ t ∈ fetchHints hints) ∧ kept F t then (o.find t).map normA else none) :
    ReadsOn M C O F o u (step M C O e (after M C O [] tr₁) c).2 i := by
  obtain ⟨K, v, s1⟩ := stays_reach (M := M) (C := C) (O := O) tr₁ hp hm i u
  intro tr₂ hl n₂ hn₂ hse hw
  obtain ⟨o', a⟩ := s1.agree
  obtain ⟨π, hv⟩ := s1.vault
  obtain ⟨K', v', π', ini, t1, _, _, _, _, t6⟩ := step_pins M O c s1.inv a he hv
  obtain ⟨rfl, rfl⟩ := t6 hini
  have s2 : Stays C u (some r) K' v' (step M C O e (after M C O [] tr₁) c).2 i :=
    ⟨inv_step M O e _ c s1.inv, hinv_step M O e _ c s1.inv s1.hinv, tinv_step M O e _ c s1.inv s1.tinv, ⟨_, agree_step M O e c s1.inv a⟩,
      ⟨by rw [dbAt_some hs']; exact hrow, noDedup_step s1.inv hc
        (fun j slj hj => noDedup_run tr₁ (inv_empty [] 0) hm (fun i sl h => by cases h) j slj hj) i⟩, ⟨π', t1⟩⟩
  have s3 := stays_run hM hI tr₂ hl s2
  unfold Token.loggedIn at hlog
  obtain ⟨w, hw'⟩ := Option.isSome_iff_exists.1 hlog
  exact reads_of s3 (logged_aci (hv.2 sl hs) hw') hread hn₂ hse hw

/-- C27 for C_GenerateKeyPair; the two keys must have different unique ids, or the second replaces the first. -/
theorem C27_pair (hM : noCounter M) (hI : HonoursId M) (hR : RegularMechs M O) (tr₁ : Trace) (hp : ∀ p ∈ tr₁, plain p.1)
    (hm : ∀ p ∈ tr₁, noMerge p.2) (e : Env) (he : plain e) (i h n₁ n₂ m : Nat) (q : Bytes) (pub priv : Template)
    (ho : onSlot M C O (after M C O [] tr₁) h i)
    (hok : (step M C O e (after M C O [] tr₁) (.op h (.generatePair m q pub priv))).1 = .handles [n₁, n₂]) :
    ∃ a b, M.genPair (e.sub 0) m q pub priv = .ok (a, b) ∧
      (a.isToken = true → (∀ u, a.getStr CKA_UNIQUE_ID = .ok u → b.getStr CKA_UNIQUE_ID ≠ .ok u) →
        ∃ F u, objFactory (fresh a) = .ok F ∧ (fresh a).getStr CKA_UNIQUE_ID = .ok u ∧
          standsFor (step M C O e (after M C O [] tr₁) (.op h (.generatePair m q pub priv))).2 i n₁ u ∧
          ReadsOn M C O F (fresh a) u (step M C O e (after M C O [] tr₁) (.op h (.generatePair m q pub priv))).2 i) ∧
      (b.isToken = true →
        ∃ F u, objFactory (fresh b) = .ok F ∧ (fresh b).getStr CKA_UNIQUE_ID = .ok u ∧
          standsFor (step M C O e (after M C O [] tr₁) (.op h (.generatePair m q pub priv))).2 i n₂ u ∧
          ReadsOn M C O F (fresh b) u (step M C O e (after M C O [] tr₁) (.op h (.generatePair m q pub priv))).2 i) := by
  have hi := inv_reach (C := C) M O [] tr₁
  obtain ⟨sl, x, hg, hs, hx⟩ := getSession_live hi ((onSlot_iff hi).1 ho)
  have hg : (after M C O [] tr₁).getSession h = .ok (i, sl, x) := hg
  have hti : TInv (after M C O [] tr₁) := tinv_reach M O (fun p h => by cases h) tr₁
  have hhi := hinv_reach (C := C) M O [] tr₁
  have shape : ∃ a b t1, M.genPair (e.sub 0) m q pub priv = .ok (a, b) ∧ sl.token.insertObject C (e.sub 1) h (fresh a) = (.ok n₁, t1) ∧
      ∃ sl', AMap.get (step M C O e (after M C O [] tr₁) (.op h (.generatePair m q pub priv))).2.slots i = some sl' ∧
        t1.insertObject C (e.sub 2) h (fresh b) = (.ok n₂, sl'.token) := by
    have get : ∃ t2, fnGenPair M C e h m q pub priv x sl.token = (.ok (n₁, n₂), t2) ∧
        ∃ sl', AMap.get (step M C O e (after M C O [] tr₁) (.op h (.generatePair m q pub priv))).2.slots i = some sl' ∧ sl'.token = t2 := by
      unfold step at hok ⊢
      simp only [hg, opStep] at hok ⊢
      generalize fnGenPair M C e h m q pub priv x sl.token = p at hok ⊢
      obtain ⟨r, t2⟩ := p
      cases r with
      | error r => cases hok
      | ok p =>
        obtain ⟨k₁, k₂⟩ := p
        injection hok with hok
        injection hok with h1 h2
        injection h2 with h2
        subst h1; subst h2
        exact ⟨t2, rfl, _, (get_setSlot hs).trans (if_pos rfl), rfl⟩
    obtain ⟨t2, hfn, sl', hs', rfl⟩ := get
    revert hfn
    unfold fnGenPair
    split; · nofun
    split; · nofun
    split; · nofun
    split; · nofun
    split; · nofun
    rename_i a b hab
    generalize hins : sl.token.insertObject C (e.sub 1) h (fresh a) = p
    obtain ⟨r, t1⟩ := p
    cases r with
    | error r => nofun
    | ok k₁ =>
      simp only
      generalize hins2 : t1.insertObject C (e.sub 2) h (fresh b) = p
      obtain ⟨r, t2⟩ := p
      cases r with
      | error r => nofun
      | ok k₂ =>
        simp only
        intro hfn
        injection hfn with h1 h2
        injection h1 with h1
        injection h1 with h1 h3
        subst h1; subst h3; subst h2
        exact ⟨a, b, t1, hab, hins, sl', hs', hins2⟩
  obtain ⟨a, b, t1, hab, hin1, sl', hs', hin2⟩ := shape
  obtain ⟨ra, rb⟩ := hR.genPair _ _ _ _ _ _ _ hab
  have uidf : ∀ {o : Obj}, Regular o → (fresh o).getStr CKA_UNIQUE_ID = o.getStr CKA_UNIQUE_ID := by
    intro o hr
    have e : (fresh o).attrs = o.attrs := oneUid_same _ hr.once
    unfold Obj.getStr Obj.find
    rw [e]
  have hok0 := (hhi i sl hs).ok
  obtain ⟨hok1, _, _, _⟩ := ins_ok hok0 (zero_fresh a) hin1
  obtain ⟨_, _, hkeep, _⟩ := ins_ok hok1 (zero_fresh b) hin2
  have ok0 := hti.slots i sl hs
  have ok1 : TblOk t1.store.db.objs := by
    have := (move_insert (C := C) (k := h) (N := fun _ => True) (I := False) (D := fun _ => False) (e.sub 1) (fresh a) sl.token (zero_fresh a) trivial).ok ok0
    rw [hin1] at this
    exact this
  have hlog1 : t1.loggedIn = sl.token.loggedIn := by
    have := (insertObject_same (C := C) (e.sub 1) sl.token h (fresh a)).logged
    rw [hin1] at this
    unfold Token.loggedIn
    rw [this]
  have haci1 : t1.store.aci = sl.token.store.aci := by
    have := aci_insert (C := C) (e.sub 1) sl.token h (fresh a)
    rw [hin1] at this
    exact this
  refine ⟨a, b, hab, fun ht hne => ?_, fun ht => ?_⟩
  · obtain ⟨F, u, r, hF, hu, hrow, hget, hlog, hread⟩ := insert_stored (t := sl.token) ok0 (zero_fresh a) (fresh_onToken ra ht) (regular_fresh ra) hin1
    refine ⟨F, u, hF, hu, ⟨sl', hs', ?_⟩, ?_⟩
    · exact hkeep _ _ hget
    · refine rows_reads hM hI tr₁ hp hm he (by trivial) (by intro _ _ h; cases h) hs hs' ?_ hlog hread
      have := insert_rows (C := C) (k := h) (u := u) (e.sub 2) (zero_fresh b) (by
        rw [uidf rb]
        exact hne u (by rw [← uidf ra]; exact hu)) ok1
      rw [hin2] at this
      exact this.trans hrow
  · obtain ⟨F, u, r, hF, hu, hrow, hget, hlog, hread⟩ := insert_stored (t := t1) ok1 (zero_fresh b) (fresh_onToken rb ht) (regular_fresh rb) hin2
    refine ⟨F, u, hF, hu, ⟨sl', hs', hget⟩, ?_⟩
    refine rows_reads hM hI tr₁ hp hm he (by trivial) (by intro _ _ h; cases h) hs hs' hrow (by rw [← hlog1]; exact hlog) ?_
    rw [← haci1]
    exact hread

/-- C27 for C_DeriveKey where one key is made. -/
theorem C27_derived (hM : noCounter M) (hI : HonoursId M) (hR : RegularMechs M O) (tr₁ : Trace) (hp : ∀ p ∈ tr₁, plain p.1)
    (hm : ∀ p ∈ tr₁, noMerge p.2) (e : Env) (he : plain e) (i h n m key : Nat) (q : Bytes) (tm : Template)
    (hmech : m ≠ CKM_TLS12_KEY_AND_MAC_DERIVE ∧ m ≠ CKM_TLS12_KEY_SAFE_DERIVE)
    (ho : onSlot M C O (after M C O [] tr₁) h i)
    (hok : (step M C O e (after M C O [] tr₁) (.op h (.derive m q key tm))).1 = .handles [n]) :
    ∃ k l o, M.derive (e.sub 2) m q k l tm = .ok [o] ∧
      (∃ sl, AMap.get (after M C O [] tr₁).slots i = some sl ∧ sl.token.getObjectByHandle C (e.sub 0) key = .ok k) ∧ (o.isToken = true →
      ∃ F u, objFactory (fresh o) = .ok F ∧ (fresh o).getStr CKA_UNIQUE_ID = .ok u ∧
        standsFor (step M C O e (after M C O [] tr₁) (.op h (.derive m q key tm))).2 i n u ∧
        ReadsOn M C O F (fresh o) u (step M C O e (after M C O [] tr₁) (.op h (.derive m q key tm))).2 i) := by
  have hi := inv_reach (C := C) M O [] tr₁
  obtain ⟨sl, x, hg, hs, hx⟩ := getSession_live hi ((onSlot_iff hi).1 ho)
  have hg : (after M C O [] tr₁).getSession h = .ok (i, sl, x) := hg
  have more : ∀ (e : Env) (t : Token) (os : List Obj) (j : Nat) l t', os ≠ [] → insertAll C e h t os j = (none, l, t') → l ≠ [] := by
    intro e t os j l t' hne hl
    cases os with
    | nil => exact absurd rfl hne
    | cons o os =>
      unfold insertAll at hl
      generalize t.insertObject C (e.sub j) h (fresh o) = p at hl
      obtain ⟨r, t1⟩ := p
      cases r with
      | error r => cases hl
      | ok k =>
        simp only at hl
        generalize insertAll C e h t1 os (j + 1) = p at hl
        obtain ⟨r, l', t2⟩ := p
        injection hl with _ hl
        injection hl with hl _
        rw [← hl]
        exact List.cons_ne_nil _ _
  have shape : ∃ k l o, M.derive (e.sub 2) m q k l tm = .ok [o] ∧ sl.token.getObjectByHandle C (e.sub 0) key = .ok k ∧
      ∃ sl', AMap.get (step M C O e (after M C O [] tr₁) (.op h (.derive m q key tm))).2.slots i = some sl' ∧
        sl.token.insertObject C (e.sub 3) h (fresh o) = (.ok n, sl'.token) := by
    have get : ∃ t2, fnDerive M C e h m q key tm x sl.token = (.ok [n], t2) ∧
        ∃ sl', AMap.get (step M C O e (after M C O [] tr₁) (.op h (.derive m q key tm))).2.slots i = some sl' ∧ sl'.token = t2 := by
      unfold step at hok ⊢
      simp only [hg, opStep] at hok ⊢
      generalize fnDerive M C e h m q key tm x sl.token = p at hok ⊢
      obtain ⟨r, t2⟩ := p
      cases r with
      | error r => cases hok
      | ok p =>
        injection hok with hok
        subst hok
        exact ⟨t2, rfl, _, (get_setSlot hs).trans (if_pos rfl), rfl⟩
    obtain ⟨t2, hfn, sl', hs', rfl⟩ := get
    revert hfn
    unfold fnDerive
    split; · nofun
    split; · nofun
    split; · nofun
    rename_i k hk
    split; · nofun
    split; · nofun
    split; · nofun
    split; · nofun
    split; · nofun
    rename_i l hl
    split; · nofun
    · nofun
    rename_i o os hd
    by_cases c1 : m = CKM_SP800_108_COUNTER_KDF ∨ m = CKM_SP800_108_FEEDBACK_KDF ∨ m = CKM_SP800_108_DOUBLE_PIPELINE_KDF
    · rw [if_pos c1]
      generalize hins : sl.token.insertObject C (e.sub 3) h (fresh o) = p
      obtain ⟨r, t1⟩ := p
      cases r with
      | error r => nofun
      | ok k₁ =>
        simp only
        by_cases c2 : os = []
        · rw [if_pos c2]
          subst c2
          intro hfn
          injection hfn with h1 h2
          injection h1 with h1
          injection h1 with h1
          subst h1; subst h2
          exact ⟨k, l, o, hd, hk, sl', hs', hins⟩
        · rw [if_neg c2]
          split; · nofun
          split; · nofun
          split; · nofun
          generalize hall : insertAll C (e.sub 4) h t1 os 0 = p
          obtain ⟨r, l', t2⟩ := p
          cases r with
          | some r => nofun
          | none =>
            intro hfn
            injection hfn with hfn _
            injection hfn with hfn
            injection hfn with _ hfn
            exact absurd hfn (more _ _ _ _ _ _ c2 hall)
    · rw [if_neg c1, if_neg (fun h => h.elim hmech.1 hmech.2)]
      by_cases c2 : os = []
      · rw [if_neg (by simp [c2])]
        subst c2
        generalize hins : sl.token.insertObject C (e.sub 3) h (fresh o) = p
        obtain ⟨r, t1⟩ := p
        cases r with
        | error r => nofun
        | ok k₁ =>
          intro hfn
          injection hfn with h1 h2
          injection h1 with h1
          injection h1 with h1
          subst h1; subst h2
          exact ⟨k, l, o, hd, hk, sl', hs', hins⟩
      · rw [if_pos c2]
        nofun
  obtain ⟨k, l, o, hd, hk, sl', hs', hins⟩ := shape
  refine ⟨k, l, o, hd, ⟨sl, hs, hk⟩, fun ht => ?_⟩
  have hro : Regular o := hR.derive _ _ _ _ _ _ _ hd o (by simp)
  exact stored_reads hM hI tr₁ hp hm he (by trivial) (by intro _ _ h; cases h) hs hs' (zero_fresh o) (fresh_onToken hro ht) (regular_fresh hro) ⟨rfl, rfl⟩ hins

/-! ## Cases -/

/-- Mechanisms whose key pairs and derived keys are the keys of the templates. -/
def ex27 : Mechs := { exMechs with
  encapsulate := fun _ _ => .ok (exKeyBytes, [1])
  genPair := fun e _ _ pub priv => match factoriesCreate exOracle (e.sub 0).uid pub with
    | .error x => .error x
    | .ok a => match factoriesCreate exOracle (e.sub 1).uid priv with
      | .error x => .error x
      | .ok b => .ok (a, b)
  derive := fun e _ _ _ _ tm => match factoriesCreate exOracle e.uid tm with
    | .error x => .error x
    | .ok o => .ok [o] }

theorem ex27_pair {e : Env} {m : Nat} {q : Bytes} {pub priv : Template} {a b : Obj} (h : ex27.genPair e m q pub priv = .ok (a, b)) :
    factoriesCreate exOracle (e.sub 0).uid pub = .ok a ∧ factoriesCreate exOracle (e.sub 1).uid priv = .ok b := by
  simp only [ex27] at h
  split at h
  · cases h
  split at h
  · cases h
  rename_i ha _ _ hb
  injection h with h
  injection h with h1 h2
  subst h1; subst h2
  exact ⟨ha, hb⟩

theorem ex27_derive {e : Env} {m : Nat} {q : Bytes} {k : Obj} {l : List Obj} {tm : Template} {r : List Obj}
    (h : ex27.derive e m q k l tm = .ok r) : ∃ o, factoriesCreate exOracle e.uid tm = .ok o ∧ r = [o] := by
  simp only [ex27] at h
  split at h
  · cases h
  rename_i o ho
  injection h with h
  exact ⟨o, ho, h.symm⟩

theorem ex27_noCounter : noCounter ex27 := exMechs_noCounter

theorem ex27_plain : plainMechs ex27 := by
  intro e k a op i n tm h
  rw [ex27_noCounter] at h
  cases h

theorem ex27_regular : RegularMechs ex27 exOracle where
  genKey := exMechs_regular.genKey
  genPair _ _ _ _ _ _ _ h := ⟨regular_create exMechs_regular (ex27_pair h).1, regular_create exMechs_regular (ex27_pair h).2⟩
  derive _ _ _ _ _ _ _ h o ho := by
    obtain ⟨o', h1, rfl⟩ := ex27_derive h
    rw [List.mem_singleton] at ho
    subst ho
    exact regular_create exMechs_regular h1
  importAttrs := exMechs_regular.importAttrs
  asym := exMechs_regular.asym

theorem ex27_ids : HonoursId ex27 where
  genKey := exMechs_ids.genKey
  genPair e _ _ pub priv _ _ h :=
    ⟨ids_create (P := fun v => (∃ p, v = e.uuid p) ∨ ∃ c ∈ pub, c.typ = CKA_UNIQUE_ID ∧ c.toBuf = v) (.inl ⟨_, rfl⟩)
        (fun c hc ht => .inr ⟨c, hc, ht, rfl⟩) (ex27_pair h).1,
      ids_create (P := fun v => (∃ p, v = e.uuid p) ∨ ∃ c ∈ priv, c.typ = CKA_UNIQUE_ID ∧ c.toBuf = v) (.inl ⟨_, rfl⟩)
        (fun c hc ht => .inr ⟨c, hc, ht, rfl⟩) (ex27_pair h).2⟩
  derive e _ _ _ _ tm _ h o ho := by
    obtain ⟨o', h1, rfl⟩ := ex27_derive h
    rw [List.mem_singleton] at ho
    subst ho
    exact ids_create (P := fun v => (∃ p, v = e.uuid p) ∨ ∃ c ∈ tm, c.typ = CKA_UNIQUE_ID ∧ c.toBuf = v) (.inl ⟨_, rfl⟩)
      (fun c hc ht => .inr ⟨c, hc, ht, rfl⟩) h1
  importAttrs := exMechs_ids.importAttrs

/-- An AES key on the token (8), for unwrapping too. -/
def exSetIn : Trace := exC27In ++ [(exEnv 7, .sess 1 (.createObject (exPlainKey ++ [.ofBool CKA_UNWRAP true])))]

def exSetSt : St := after ex27 exCrypto exOracle [] exSetIn

theorem exSetIn_plain : ∀ p ∈ exSetIn, plain p.1 ∧ noMerge p.2 ∧ plainCall p.2 := by
  intro p hp
  simp only [exSetIn, exC27In, exStart, List.cons_append, List.nil_append, List.mem_cons, List.not_mem_nil, or_false] at hp
  rcases hp with rfl | rfl | rfl | rfl | rfl | rfl | rfl | rfl <;> exact ⟨exEnv_plain _, by simp [noMerge, exConf], trivial⟩

set_option maxRecDepth 20000 in
theorem exSet_stands : standsFor exSetSt 7 8 [97, 104, 97] := by
  have h : (AMap.get exSetSt.slots 7).map (fun sl : Slot => sl.token.handles.get 8) = some (some [97, 104, 97]) := by decide +kernel
  revert h
  unfold standsFor
  generalize AMap.get exSetSt.slots 7 = x
  intro h
  exact of_map h

set_option maxRecDepth 20000 in
theorem exSet_on : onSlot ex27 exCrypto exOracle exSetSt 1 7 := ⟨quietEnv, .rwUser, 6, by decide +kernel⟩

def exNewName : Template := [.mk' CKA_LABEL [1, 2], .mk' CKA_ID [7]]

/-- The template of an AES key that comes from elsewhere: on the token and readable. -/
def exTokIn : Template := exAesIn ++ [.ofBool CKA_TOKEN true, .ofBool CKA_SENSITIVE false, .ofBool CKA_EXTRACTABLE true]

/-- Where the value of an attribute goes. -/
def exAskFor (t n : Nat) : OutAttr := ⟨t, false, n, List.replicate n 0⟩

set_option maxRecDepth 20000 in
/-- What the calls answer: new values after C_SetAttributeValue, a copy with another label, an unwrapped key. -/
example : (outs ex27 exCrypto exOracle exSetSt [
      (exEnv 8, .sess 1 (.setAttr 8 exNewName)), (exEnv 9, .sess 1 (.getAttr 8 [exAskFor CKA_LABEL 2, exAskFor CKA_ID 1, exAskFor CKA_VALUE 16])),
      (exEnv 10, .sess 1 (.copyObject 8 [.mk' CKA_LABEL [3]])), (exEnv 11, .sess 1 (.getAttr 9 [exAskFor CKA_LABEL 1, exAskFor CKA_ID 1, exAskFor CKA_VALUE 16])),
      (exEnv 12, .op 1 (.unwrap CKM_AES_ECB [] 8 exKeyBytes exTokIn)), (exEnv 13, .sess 1 (.getAttr 10 [exAskFor CKA_VALUE 16]))]) =
    [.ok, .attrs (.ok ()) [⟨CKA_LABEL, false, 2, [1, 2]⟩, ⟨CKA_ID, false, 1, [7]⟩, ⟨CKA_VALUE, false, 16, exKeyBytes⟩],
     .handle 9, .attrs (.ok ()) [⟨CKA_LABEL, false, 1, [3]⟩, ⟨CKA_ID, false, 1, [7]⟩, ⟨CKA_VALUE, false, 16, exKeyBytes⟩],
     .handle 10, .attrs (.ok ()) [⟨CKA_VALUE, false, 16, exKeyBytes⟩]] := by decide +kernel

set_option maxRecDepth 20000 in
/-- `C27_set` applies. -/
example := C27_set (M := ex27) (C := exCrypto) (O := exOracle) ex27_noCounter ex27_ids exSetIn (fun p h => (exSetIn_plain p h).1)
  (fun p h => (exSetIn_plain p h).2.1) (exEnv 8) (exEnv_plain _) 7 1 8 [97, 104, 97] exNewName
  ⟨by decide +kernel, by decide +kernel⟩ exSet_on exSet_stands (by decide +kernel) (by decide +kernel)

set_option maxRecDepth 20000 in
/-- `C27_copied` applies. -/
example := C27_copied (M := ex27) (C := exCrypto) (O := exOracle) ex27_noCounter ex27_ids ex27_regular ex27_plain exSetIn
  (fun p h => (exSetIn_plain p h).1) (fun p h => (exSetIn_plain p h).2) (exEnv 10) (exEnv_plain _) 7 1 8 9 [.mk' CKA_LABEL [3]]
  (by decide +kernel) (by decide +kernel) exSet_on (by decide +kernel)

set_option maxRecDepth 20000 in
/-- `C27_unwrapped` applies. -/
example := C27_unwrapped (M := ex27) (C := exCrypto) (O := exOracle) ex27_noCounter ex27_ids ex27_regular exSetIn
  (fun p h => (exSetIn_plain p h).1) (fun p h => (exSetIn_plain p h).2.1) (exEnv 12) (exEnv_plain _) 7 1 9 CKM_AES_ECB 8 [] exKeyBytes exTokIn
  exSet_on (by decide +kernel)

theorem exC25b_plain : ∀ p ∈ exC25b, plain p.1 ∧ noMerge p.2 := by
  intro p hp
  simp only [exC25b, List.mem_cons, List.not_mem_nil, or_false] at hp
  rcases hp with rfl | rfl | rfl | rfl | rfl | rfl | rfl | rfl | rfl | rfl | rfl <;>
    exact ⟨exEnv_plain _, by simp [noMerge, exConf2]⟩

def exKeysSt : St := after ex27 exCrypto exOracle [] exC25b

set_option maxRecDepth 20000 in
theorem exKeys_on : onSlot ex27 exCrypto exOracle exKeysSt 1 7 := ⟨quietEnv, .rwUser, 6, by decide +kernel⟩

set_option maxRecDepth 20000 in
/-- `C27_encapsulated` applies. -/
example := C27_encapsulated (M := ex27) (C := exCrypto) (O := exOracle) ex27_noCounter ex27_ids ex27_regular exC25b
  (fun p h => (exC25b_plain p h).1) (fun p h => (exC25b_plain p h).2) (exEnv 11) (exEnv_plain _) 7 1 16 CKM_ML_KEM 14 [1] (some 20) exTokIn
  exKeys_on (by decide +kernel)

set_option maxRecDepth 20000 in
/-- `C27_decapsulated` applies. -/
example := C27_decapsulated (M := ex27) (C := exCrypto) (O := exOracle) ex27_noCounter ex27_ids ex27_regular exC25b
  (fun p h => (exC25b_plain p h).1) (fun p h => (exC25b_plain p h).2) (exEnv 11) (exEnv_plain _) 7 1 16 CKM_ML_KEM 15 exKeyBytes exTokIn
  exKeys_on (by decide +kernel)

set_option maxRecDepth 20000 in
/-- `C27_pair` applies. -/
example := C27_pair (M := ex27) (C := exCrypto) (O := exOracle) ex27_noCounter ex27_ids ex27_regular exC25b
  (fun p h => (exC25b_plain p h).1) (fun p h => (exC25b_plain p h).2) (exEnv 11) (exEnv_plain _) 7 1 16 17 CKM_EC_KEY_PAIR_GEN [] exPlainKey exPlainKey
  exKeys_on (by decide +kernel)

set_option maxRecDepth 20000 in
/-- The two keys of that pair are on the token and have different ids. -/
example : ∃ a b, ex27.genPair ((exEnv 11).sub 0) CKM_EC_KEY_PAIR_GEN [] exPlainKey exPlainKey = .ok (a, b) ∧ a.isToken = true ∧ b.isToken = true ∧
    a.getStr CKA_UNIQUE_ID ≠ b.getStr CKA_UNIQUE_ID := ⟨_, _, rfl, rfl, rfl, by decide +kernel⟩

set_option maxRecDepth 20000 in
/-- `C27_derived` applies. -/
example := C27_derived (M := ex27) (C := exCrypto) (O := exOracle) ex27_noCounter ex27_ids ex27_regular exC25b
  (fun p h => (exC25b_plain p h).1) (fun p h => (exC25b_plain p h).2) (exEnv 11) (exEnv_plain _) 7 1 16 CKM_TLS_KDF 12 [] exPlainKey
  (by decide +kernel) exKeys_on (by decide +kernel)

set_option maxRecDepth 20000 in
/-- After these calls the keys are there under the handles answered. -/
example : (outs ex27 exCrypto exOracle exKeysSt [
      (exEnv 11, .op 1 (.encapsulate CKM_ML_KEM 14 exTokIn (some 20))), (exEnv 12, .op 1 (.decapsulate CKM_ML_KEM 15 exKeyBytes exTokIn)),
      (exEnv 13, .op 1 (.generatePair CKM_EC_KEY_PAIR_GEN [] exPlainKey exPlainKey)), (exEnv 14, .op 1 (.derive CKM_TLS_KDF [] 12 exPlainKey)),
      (exEnv 15, .sess 1 (.getAttr 16 [exAskFor CKA_VALUE 16])), (exEnv 16, .sess 1 (.getAttr 20 [exAskFor CKA_VALUE 16]))]) =
    [.handleBytes 16 [1], .handle 17, .handles [18, 19], .handles [20], .attrs (.ok ()) [⟨CKA_VALUE, false, 16, exKeyBytes⟩],
     .attrs (.ok ()) [⟨CKA_VALUE, false, 16, exKeyBytes⟩]] := by decide +kernel

/-! ## What does not hold -/

set_option maxRecDepth 20000 in
/-- **Counterexample**: C_SetAttributeValue with an empty CKA_START_DATE succeeds, and the attribute then reads "00000000", eight characters
(`src/pkcs11/mod.rs:988-1004`). -/
theorem C27_date_violation : ∃ (tr : Trace) (h n : Nat) (e : Env),
    (step ex27 exCrypto exOracle e (after ex27 exCrypto exOracle [] tr) (.sess h (.setAttr n [.mk' CKA_START_DATE []]))).1 = .ok ∧
    reports ex27 exCrypto exOracle
      (step ex27 exCrypto exOracle e (after ex27 exCrypto exOracle [] tr) (.sess h (.setAttr n [.mk' CKA_START_DATE []]))).2 h n CKA_START_DATE
      [48, 48, 48, 48, 48, 48, 48, 48] :=
  ⟨exSetIn, 1, 8, exEnv 8, by decide +kernel, exEnv 9, exAskFor CKA_START_DATE 8, ⟨CKA_START_DATE, false, 8, [48, 48, 48, 48, 48, 48, 48, 48]⟩, rfl, rfl,
    by decide +kernel, rfl⟩

end Kry
