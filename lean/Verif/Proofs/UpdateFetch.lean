import Verif.Proofs.Sealed
import Verif.Props.C27

/-!
# Reading what C_SetAttributeValue has stored
-/

namespace Kry
open Spec

variable {C : Crypto}

/-! ## Reading rows that stand for an object -/

/-- The rows `r` of object `u` stand for `o1`, in which the sensitive attributes of `o` are encrypted: they read as `o`. -/
theorem decoded_fetch {a : Aci} {F : Factory} {u : Bytes} {r : List (Nat × DbVal)} {o o1 : Obj} (hF : objFactory o = .ok F) (hr : Regular o)
    (hd : Decodes r (fun ty => if kept F ty then (o1.find ty).map normA else none))
    (hsame : ∀ t, t ∉ F.sensitive → o1.find t = o.find t)
    (hsens : a.encrypt = true → ∀ t ∈ F.sensitive, (o.find t = none ∧ o1.find t = none) ∨
      ∃ x y, o.find t = some x ∧ o1.find t = some y ∧ ∀ {e : Env} {b : Aci}, quiet e → a.key = b.key → a.keyVersion = b.keyVersion →
        b.decryptValue C e u y.value = .ok x.value)
    (hplain : a.encrypt = false → ∀ t, o1.find t = o.find t)
    {e2 : Env} {s2 : Store} {h2 : Handles} {n2 : Nat} {hints : List Nat} (ok2 : TblOk s2.db.objs) (hrow2 : rowsOf s2.db.objs u = some r)
    (hk : sameKey a s2.aci) (hg : h2.get n2 = some u) (q : quiet e2) (hh : ∀ t ∈ fetchHints hints, t < 2 ^ 32) :
    ∃ o2, s2.fetch C e2 h2 n2 hints = .ok o2 ∧ o2.handle = n2 ∧ objFactory o2 = .ok F ∧
      ∀ t, o2.find t = if (fetchHints hints = [] ∨ t ∈ fetchHints hints) ∧ kept F t then (o.find t).map normA else none := by
  obtain ⟨k, hm⟩ := objFactory_mem hF
  have hb := allFactories_spec sensitive_bytes hm
  simp only [List.all_eq_true, beq_iff_eq] at hb
  have hnd := allFactories_spec sensitive_nodup hm
  simp only [decide_eq_true_eq] at hnd
  have hnum : ∀ t, attrKind t = some .num → t ∉ F.sensitive := fun t h1 h2 => by
    have := hb t h2; rw [h1] at this; cases this
  have hkept : ∀ t ∈ [CKA_CLASS, CKA_KEY_TYPE, CKA_CERTIFICATE_TYPE], kept F t := by
    intro t ht
    have h1 := plain_kept t ht
    refine ⟨by rw [h1]; exact ⟨nofun, nofun⟩, fun h2 => ?_⟩
    rw [ephemeral_mem hF h2] at ht
    exact absurd ht (by decide)
  have hcls : (if kept F CKA_CLASS then (o1.find CKA_CLASS).map normA else none) ≠ none := by
    rw [if_pos (hkept _ (by simp)), hsame _ (hnum _ (by decide +kernel))]
    have := hr.has
    cases hx : o.find CKA_CLASS with
    | none => exact absurd hx this
    | some a => simp
  have hin : hints ≠ [] → ∀ t ∈ [CKA_CLASS, CKA_KEY_TYPE, CKA_CERTIFICATE_TYPE], t ∈ fetchHints hints :=
    fun h t ht => by
      have := hints_types h
      simp only [List.mem_cons, List.not_mem_nil, or_false] at ht
      rcases ht with rfl | rfl | rfl
      · exact this.1
      · exact this.2.1
      · exact this.2.2
  have hnil : fetchHints hints ≠ [] → hints ≠ [] := by
    rintro h rfl
    exact h rfl
  obtain ⟨o3, hf3, _, hfind3⟩ := fetchByUid_rows ok2 hrow2 hd hcls (quiet_fails (quiet_sub q 0)) hh
    (fun h => hin (hnil h) _ (by simp))
  have h3 : ∀ t ∈ [CKA_CLASS, CKA_KEY_TYPE, CKA_CERTIFICATE_TYPE], o3.find t = o.find t := by
    intro t ht
    have h1 := plain_kept t ht
    rw [hfind3, if_pos, if_pos (hkept t ht), hsame t (hnum t h1)]
    · cases hx : o.find t with
      | none => rfl
      | some a =>
        simp only [Option.map_some]
        rw [normA_num (by rw [find_typ hx, h1]; nofun)]
    · by_cases hx : fetchHints hints = []
      · exact .inl hx
      · exact .inr (hin (hnil hx) t ht)
  have hF3 : objFactory o3 = .ok F := by
    rw [← hF]
    exact objFactory_congr (h3 _ (by simp)) (h3 _ (by simp)) (h3 _ (by simp))
  unfold Store.fetch
  rw [hg]
  simp only
  rw [hf3]
  simp only
  rw [hF3]
  simp only
  by_cases henc : a.encrypt = true
  · rw [← hk.1, if_pos henc]
    obtain ⟨hkey, hver⟩ := hk.2 henc
    obtain ⟨o4, h4, hfind4⟩ := decryptLoop_spec (C := C) (e := e2.sub 1) (a := s2.aci) (u := u) (ts := F.sensitive) (i := 0) (o := o3)
      (fun t => match o.find t with | some x => x.value | none => []) hnd (hnum _ (by decide +kernel)) (by
        intro t ht x hx j
        rw [hfind3] at hx
        rcases hsens henc t ht with ⟨_, sp⟩ | ⟨y, z, ho, hz, hdec⟩
        · rw [sp] at hx
          repeat' split at hx
          all_goals cases hx
        · rw [hz] at hx
          repeat' split at hx
          all_goals first | (cases hx; done) | skip
          simp only [Option.map_some, Option.some.injEq] at hx
          rw [← hx, normA_value, ho]
          exact hdec (quiet_sub (quiet_sub q 1) j) hkey hver)
    rw [h4]
    refine ⟨_, rfl, rfl, ?_, ?_⟩
    · exact (objFactory_congr (b := o4) rfl rfl rfl).trans (decryptLoop_factory hF3 h4)
    intro t
    show o4.find t = _
    rw [hfind4, hfind3]
    by_cases hts : t ∈ F.sensitive
    · rw [if_pos hts]
      rcases hsens henc t hts with ⟨ho, sp⟩ | ⟨y, z, ho, hz, _⟩
      · rw [sp, ho]
        simp
      · rw [hz, ho]
        by_cases ha : fetchHints hints = [] ∨ t ∈ fetchHints hints
        · by_cases hkt : kept F t
          · rw [if_pos ha, if_pos hkt, if_pos ⟨ha, hkt⟩]
            simp only [Option.map_some, Option.some.injEq]
            have hty : y.typ = t := find_typ ho
            have hfy := hr.form y (find_mem ho)
            rw [normA_num (by rw [hty, hb t hts]; nofun)]
            obtain ⟨ty, k, v⟩ := y
            simp only at hty
            subst hty
            rcases hfy with hfy | hfy
            · have := hfy.1
              simp only at this
              rw [hb _ hts] at this
              injection this with this
              rw [← this]
              rfl
            · have := hfy.1
              simp only at this
              rw [hb _ hts] at this
              cases this
          · rw [if_pos ha, if_neg hkt, if_neg (fun h => hkt h.2)]; rfl
        · rw [if_neg ha, if_neg (fun h => ha h.1)]; rfl
    · rw [if_neg hts, hsame t hts]
      by_cases ha : fetchHints hints = [] ∨ t ∈ fetchHints hints
      · by_cases hkt : kept F t
        · rw [if_pos ha, if_pos hkt, if_pos ⟨ha, hkt⟩]
        · rw [if_pos ha, if_neg hkt, if_neg (fun h => hkt h.2)]
      · rw [if_neg ha, if_neg (fun h => ha h.1)]
  · have henc' : a.encrypt = false := by simpa using henc
    rw [← hk.1, if_neg henc]
    refine ⟨_, rfl, rfl, (objFactory_congr rfl rfl rfl).trans hF3, ?_⟩
    intro t
    show o3.find t = _
    rw [hfind3, hplain henc' t]
    by_cases ha : fetchHints hints = [] ∨ t ∈ fetchHints hints
    · by_cases hkt : kept F t
      · rw [if_pos ha, if_pos hkt, if_pos ⟨ha, hkt⟩]
      · rw [if_pos ha, if_neg hkt, if_neg (fun h => hkt h.2)]
    · rw [if_neg ha, if_neg (fun h => ha h.1)]

/-! ## Setting attributes -/

/-- With no type twice, every attribute of the template ends up in the object. -/
theorem setAllCk_at {tm : Template} {o o' : Obj} (hn : (tm.map CkAttr.typ).Nodup) (h : setAllCk o tm = .ok o') {c : CkAttr} (hc : c ∈ tm) :
    ∃ a, Attr.fromCk c = .ok a ∧ o'.find c.typ = some a := by
  induction tm generalizing o with
  | nil => cases hc
  | cons d tm ih =>
    rw [List.map_cons, List.nodup_cons] at hn
    unfold setAllCk at h
    split at h
    · cases h
    rename_i a ha
    split at h
    · cases h
    rename_i o1 h1
    rcases List.mem_cons.1 hc with rfl | hc
    · refine ⟨a, ha, ?_⟩
      rw [setAllCk_find h (fun c' hc' e => hn.1 (by rw [← e]; exact List.mem_map_of_mem (f := CkAttr.typ) hc')), find_setAttr h1, if_pos (fromCk_typ ha)]
    · exact ih hn.2 h hc

theorem setAttr_total (o : Obj) {a : Attr} (h : a.typ ≠ CKA_CLASS) : ∃ o', o.setAttr a = .ok o' := by
  unfold Obj.setAttr
  rw [if_neg h]
  exact ⟨_, rfl⟩

theorem setAllCk_total {tm : Template} (h : ∀ c ∈ tm, c.typ ≠ CKA_CLASS ∧ ∃ a, Attr.fromCk c = .ok a) (o : Obj) : ∃ o', setAllCk o tm = .ok o' := by
  induction tm generalizing o with
  | nil => exact ⟨o, rfl⟩
  | cons c tm ih =>
    obtain ⟨h1, a, ha⟩ := h c (List.mem_cons_self ..)
    obtain ⟨o1, ho1⟩ := setAttr_total o (a := a) (by rw [fromCk_typ ha]; exact h1)
    obtain ⟨o', ho'⟩ := ih (fun c hc => h c (List.mem_cons_of_mem _ hc)) o1
    refine ⟨o', ?_⟩
    unfold setAllCk
    rw [ha]
    simp only
    rw [ho1]
    exact ho'

theorem updateEncrypt_types {e : Env} {a : Aci} {u : Bytes} {ts : List Nat} {i : Nat} {tm tm' : Template}
    (h : updateEncrypt C e a u ts i tm = .ok tm') : tm'.map CkAttr.typ = tm.map CkAttr.typ := by
  induction ts generalizing i tm with
  | nil => injection h with h; rw [h]
  | cons t ts ih =>
    unfold updateEncrypt at h
    split at h
    · exact ih h
    · rename_i c0 hf
      split at h
      · cases h
      · rw [ih h]
        exact replaceFirst_map ⟨c0, List.mem_of_find?_eq_some hf, by simpa using List.find?_some hf⟩

theorem updateEncrypt_val {e : Env} {a : Aci} {u : Bytes} {ts : List Nat} {i : Nat} {tm tm' : Template} (hn : (tm.map CkAttr.typ).Nodup)
    (hts : ts.Nodup) (h : updateEncrypt C e a u ts i tm = .ok tm') {c : CkAttr} (hc : c ∈ tm') (ht : c.typ ∈ ts) :
    ∃ c0 e1, c0 ∈ tm ∧ c0.typ = c.typ ∧ a.encryptValue C e1 u c0.toBuf = .ok c.toBuf := by
  induction ts generalizing i tm with
  | nil => cases ht
  | cons t ts ih =>
    rw [List.nodup_cons] at hts
    unfold updateEncrypt at h
    by_cases e0 : c.typ = t
    · have hnot : c.typ ∉ ts := by rw [e0]; exact hts.1
      split at h
      · rename_i hf
        have := updateEncrypt_keep h hc hnot
        rw [List.find?_eq_none] at hf
        exact absurd (by simpa using e0) (hf c this)
      · rename_i c0 hf
        split at h
        · cases h
        · rename_i v hv
          have := replaceFirst_only hn (updateEncrypt_keep h hc hnot) e0
          subst this
          exact ⟨c0, _, List.mem_of_find?_eq_some hf, (by simpa using List.find?_some hf), hv⟩
    · have ht' : c.typ ∈ ts := (List.mem_cons.1 ht).resolve_left e0
      split at h
      · exact ih hn hts.2 h ht'
      · rename_i c0 hf
        split at h
        · cases h
        · obtain ⟨c1, e1, h1, h2, h3⟩ := ih (by
            rw [replaceFirst_map ⟨c0, List.mem_of_find?_eq_some hf, by simpa using List.find?_some hf⟩]
            exact hn) hts.2 h ht'
          exact ⟨c1, e1, replaceFirst_keep h1 (by rw [h2]; exact e0), h2, h3⟩

theorem decryptLoop_val {e : Env} {a : Aci} {u : Bytes} {ts : List Nat} {i : Nat} {o o' : Obj} (hn : ts.Nodup)
    (h : decryptLoop C e a u ts i o = .ok o') {t : Nat} (ht : t ∈ ts) :
    (o.find t = none ∧ o'.find t = none) ∨
      ∃ x p e1, o.find t = some x ∧ o'.find t = some (Attr.ofBytes t p) ∧ a.decryptValue C e1 u x.value = .ok p := by
  induction ts generalizing i o with
  | nil => cases ht
  | cons t' ts ih =>
    rw [List.nodup_cons] at hn
    unfold decryptLoop at h
    by_cases e0 : t' = t
    · subst e0
      split at h
      · rename_i hx
        exact .inl ⟨hx, by rw [decryptLoop_find h hn.1]; exact hx⟩
      · rename_i x hx
        split at h
        · cases h
        · rename_i p hp
          split at h
          · cases h
          · rename_i o1 h1
            refine .inr ⟨x, p, _, hx, ?_, hp⟩
            rw [decryptLoop_find h hn.1, find_setAttr h1]
            exact if_pos rfl
    · have ht' : t ∈ ts := (List.mem_cons.1 ht).resolve_left (fun e => e0 e.symm)
      split at h
      · exact ih hn.2 h ht'
      · split at h
        · cases h
        · split at h
          · cases h
          · rename_i o1 h1
            have := ih hn.2 h ht'
            rw [find_setAttr h1, if_neg (show ¬ (Attr.ofBytes t' _).typ = t from e0)] at this
            exact this

theorem decryptValue_mono {e e' : Env} (q : quiet e') {a b : Aci} {u c p : Bytes} (hk : a.key = b.key) (hv : a.keyVersion = b.keyVersion)
    (h : a.decryptValue C e u c = .ok p) : b.decryptValue C e' u c = .ok p := by
  unfold Aci.decryptValue at h ⊢
  rw [← hk, ← hv]
  split at h
  · unfold decryptData at h ⊢
    simp only [quiet_fails q]
    revert h
    repeat' split
    all_goals first | exact id | nofun
  · cases h

theorem same_typ {tm : Template} (hn : (tm.map CkAttr.typ).Nodup) {c d : CkAttr} (hc : c ∈ tm) (hd : d ∈ tm) (h : c.typ = d.typ) : c = d := by
  induction tm with
  | nil => cases hc
  | cons x tm ih =>
    rw [List.map_cons, List.nodup_cons] at hn
    rcases List.mem_cons.1 hc with h1 | h1 <;> rcases List.mem_cons.1 hd with h2 | h2
    · rw [h1, h2]
    · exact absurd (by rw [← h1, h]; exact List.mem_map_of_mem (f := CkAttr.typ) h2) hn.1
    · exact absurd (by rw [← h2, ← h]; exact List.mem_map_of_mem (f := CkAttr.typ) h1) hn.1
    · exact ih hn.2 h1 h2

/-- Reading what was set. -/
theorem update_fetch {e e0 : Env} {s s' : Store} {hd : Handles} {n : Nat} {tm : Template} {o : Obj} (ok : TblOk s.db.objs) (hp : plainSet tm)
    (hu : ∀ c ∈ tm, c.typ ≠ CKA_UNIQUE_ID) (hf0 : s.fetch C e0 hd n [] = .ok o) (hs : s.update C e hd n tm = (.ok (), s')) :
    ∃ F u r o', objFactory o = .ok F ∧ hd.get n = some u ∧ rowsOf s'.db.objs u = some r ∧ setAllCk o tm = .ok o' ∧
      ∀ {e2 : Env} {s2 : Store} {h2 : Handles} {n2 : Nat} {hints : List Nat}, TblOk s2.db.objs → rowsOf s2.db.objs u = some r →
        sameKey s.aci s2.aci → h2.get n2 = some u → quiet e2 → (∀ t ∈ fetchHints hints, t < 2 ^ 32) →
        ∃ o2, s2.fetch C e2 h2 n2 hints = .ok o2 ∧ o2.handle = n2 ∧ objFactory o2 = .ok F ∧
          ∀ t, o2.find t = if (fetchHints hints = [] ∨ t ∈ fetchHints hints) ∧ kept F t then (o'.find t).map normA else none := by
  rcases update_store (C := C) e s hd n tm ok hu with ⟨_, r, h1⟩ | ⟨u, or, F, tm', o1, t', hg, hf, hF, htm, ho, z, hu', hst, h1⟩
  · rw [hs] at h1; cases h1
  rw [hs] at h1
  injection h1 with _ h1
  subst h1
  obtain ⟨k, hm⟩ := objFactory_mem hF
  have hb := allFactories_spec sensitive_bytes hm
  simp only [List.all_eq_true, beq_iff_eq] at hb
  have hnd := allFactories_spec sensitive_nodup hm
  simp only [decide_eq_true_eq] at hnd
  -- the object in storage, as it is there
  obtain ⟨r0, hr0, _, _, hdec⟩ := fetchByUid_ok ok hf
  have hpick : pick [] r0 = r0 := by unfold pick; rw [if_pos rfl]
  rw [hpick] at hdec
  have ro : Regular or := regular_sound1 (fetchByUid_sound ok hf) (orderly_decodeRows hdec (orderly_new _ (by decide))).cls
  -- and as it was read
  have hread : (if s.aci.encrypt = true then decryptLoop C (e0.sub 1) s.aci u F.sensitive 0 or else .ok or).map (fun o => { o with handle := n }) = .ok o := by
    unfold Store.fetch at hf0
    rw [hg] at hf0
    simp only at hf0
    split at hf0
    · cases hf0
    rename_i ox hx
    have : ox = or := by
      obtain ⟨r1, hr1, _, _, hdec1⟩ := fetchByUid_ok ok hx
      rw [hr0] at hr1; injection hr1 with hr1; subst hr1
      rw [show fetchHints [] = [] from rfl, hpick, hdec] at hdec1
      injection hdec1 with hdec1; exact hdec1.symm
    subst this
    rw [hF] at hf0
    simp only at hf0
    split at hf0
    · cases hf0
    · rename_i oy hy
      rw [hy]
      exact hf0
  have hkeep : ∀ c ∈ tm', c.typ ∉ F.sensitive → c ∈ tm := by
    intro c hc ht
    split at htm
    · exact updateEncrypt_keep htm hc ht
    · injection htm with htm; rw [htm]; exact hc
  have htypes : tm'.map CkAttr.typ = tm.map CkAttr.typ := by
    split at htm
    · exact updateEncrypt_types htm
    · injection htm with htm; rw [htm]
  have hn' : (tm'.map CkAttr.typ).Nodup := by rw [htypes]; exact hp.1
  have mate : ∀ c ∈ tm, ∃ c' ∈ tm', c'.typ = c.typ := by
    intro c hc
    have : c.typ ∈ tm'.map CkAttr.typ := by rw [htypes]; exact List.mem_map_of_mem (f := CkAttr.typ) hc
    obtain ⟨c', h1, h2⟩ := List.mem_map.1 this
    exact ⟨c', h1, h2⟩
  have mate' : ∀ t, (∀ c ∈ tm, c.typ ≠ t) → ∀ c ∈ tm', c.typ ≠ t := by
    intro t h c hc e
    have : c.typ ∈ tm.map CkAttr.typ := by rw [← htypes]; exact List.mem_map_of_mem (f := CkAttr.typ) hc
    obtain ⟨c', h1, h2⟩ := List.mem_map.1 this
    exact h c' h1 (h2.trans e)
  have hbytes : ∀ c : CkAttr, c.typ ∈ F.sensitive → Attr.fromCk c = .ok (Attr.ofBytes c.typ c.toBuf) := by
    intro c hc
    unfold Attr.fromCk
    rw [hb _ hc]
  have hfrom : ∀ c ∈ tm, c.typ ≠ CKA_CLASS ∧ ∃ a, Attr.fromCk c = .ok a := by
    intro c hc
    refine ⟨fun e => hp.2 c hc (by rw [e]; decide), ?_⟩
    by_cases hsn : c.typ ∈ F.sensitive
    · exact ⟨_, hbytes c hsn⟩
    · obtain ⟨c', h1, h2⟩ := mate c hc
      have := same_typ hp.1 (hkeep c' h1 (by rw [h2]; exact hsn)) hc h2
      subst this
      obtain ⟨a, ha, _⟩ := setAllCk_at hn' ho h1
      exact ⟨a, ha⟩
  obtain ⟨o', ho'⟩ := setAllCk_total hfrom o
  -- what was read is regular and of the same kind
  have roo : Regular o := regular_fetch ok hf0
  have ro' : Regular o' := regular_setAllCk ho' (fun c hc => (hfrom c hc).1) roo
  have hFo : objFactory o = .ok F := by
    split at hread
    · cases hl : decryptLoop C (e0.sub 1) s.aci u F.sensitive 0 or with
      | error r => rw [hl] at hread; cases hread
      | ok oy =>
        rw [hl] at hread
        injection hread with hread
        rw [← hread]
        exact (objFactory_congr (b := oy) rfl rfl rfl).trans (decryptLoop_factory hF hl)
    · injection hread with hread
      rw [← hread]
      exact (objFactory_congr (b := or) rfl rfl rfl).trans hF
  have hkind : ∀ t ∈ [CKA_CLASS, CKA_KEY_TYPE, CKA_CERTIFICATE_TYPE], o'.find t = o.find t := by
    intro t ht
    exact setAllCk_find ho' fun c hc e => hp.2 c hc (by rw [e]; exact ht)
  have hF' : objFactory o' = .ok F := by
    rw [← hFo]
    exact objFactory_congr (hkind _ (by simp)) (hkind _ (by simp)) (hkind _ (by simp))
  -- what was written
  have hcls' : ∀ c ∈ tm', c.typ ≠ CKA_CLASS := mate' _ (fun c hc => (hfrom c hc).1)
  have ro1 := regular_setAllCk ho hcls' ro
  have hdel : ∀ t ∈ F.ephemeral, t ≠ CKA_CLASS := by
    intro t ht e
    rw [ephemeral_mem hF ht] at e
    exact absurd e (by decide)
  obtain ⟨_, r, hrow, hd'⟩ := rows_regular ok (regular_delAll (l := F.ephemeral) ro1 hdel) hu' hst
  refine ⟨F, u, r, o', hFo, hg, hrow, ho', ?_⟩
  intro e2 s2 h2 n2 hints ok2 hrow2 hk hg2 q hh
  refine decoded_fetch (C := C) (a := s.aci) (o1 := o1) hF' ro' ?_ ?_ ?_ ?_ ok2 hrow2 hk hg2 q hh
  · have e1 : (fun ty => if attrKind ty ≠ some .ignore ∧ attrKind ty ≠ some .deny then
        ((delAll o1 F.ephemeral).find ty).map normA else none) =
        (fun ty => if kept F ty then (o1.find ty).map normA else none) := by
      funext ty
      rw [find_delAll]
      by_cases h1 : attrKind ty ≠ some .ignore ∧ attrKind ty ≠ some .deny
      · by_cases h2 : ty ∈ F.ephemeral
        · rw [if_pos h2, if_neg (fun h : kept F ty => h.2 h2)]
          split <;> rfl
        · rw [if_neg h2, if_pos h1, if_pos ⟨h1, h2⟩]
      · rw [if_neg h1, if_neg (fun h => h1 h.1)]
    rw [e1] at hd'
    exact hd'
  · -- attributes that are not sensitive
    intro t ht
    by_cases hin : ∃ c ∈ tm, c.typ = t
    · obtain ⟨c, hc, rfl⟩ := hin
      obtain ⟨c', h1, h2⟩ := mate c hc
      have := same_typ hp.1 (hkeep c' h1 (by rw [h2]; exact ht)) hc h2
      subst this
      obtain ⟨a, ha, hfa⟩ := setAllCk_at hn' ho h1
      obtain ⟨b, hb', hfb⟩ := setAllCk_at hp.1 ho' hc
      rw [ha] at hb'; injection hb' with hb'; subst hb'
      rw [hfa, hfb]
    · have hno : ∀ c ∈ tm, c.typ ≠ t := fun c hc e => hin ⟨c, hc, e⟩
      rw [setAllCk_find ho (mate' t hno), setAllCk_find ho' hno]
      split at hread
      · cases hl : decryptLoop C (e0.sub 1) s.aci u F.sensitive 0 or with
        | error r => rw [hl] at hread; cases hread
        | ok oy =>
          rw [hl] at hread
          injection hread with hread
          rw [← hread]
          exact (decryptLoop_find hl ht).symm
      · injection hread with hread
        rw [← hread]
        rfl
  · -- sensitive ones
    intro henc t ht
    rw [if_pos henc] at htm hread
    by_cases hin : ∃ c ∈ tm, c.typ = t
    · obtain ⟨c, hc, rfl⟩ := hin
      obtain ⟨c', h1, h2⟩ := mate c hc
      obtain ⟨c0, e1, h3, h4, h5⟩ := updateEncrypt_val hp.1 hnd htm h1 (by rw [h2]; exact ht)
      have := same_typ hp.1 h3 hc (h4.trans h2)
      subst this
      obtain ⟨a, ha, hfa⟩ := setAllCk_at hn' ho h1
      obtain ⟨b, hb', hfb⟩ := setAllCk_at hp.1 ho' hc
      rw [hbytes c' (by rw [h2]; exact ht)] at ha
      rw [hbytes c0 ht] at hb'
      injection ha with ha; injection hb' with hb'
      subst ha; subst hb'
      rw [h2] at hfa
      exact .inr ⟨_, _, hfb, hfa, fun q hk hv => decrypt_encrypt h5 hk hv q⟩
    · have hno : ∀ c ∈ tm, c.typ ≠ t := fun c hc e => hin ⟨c, hc, e⟩
      rw [setAllCk_find ho (mate' t hno), setAllCk_find ho' hno]
      cases hl : decryptLoop C (e0.sub 1) s.aci u F.sensitive 0 or with
      | error r => rw [hl] at hread; cases hread
      | ok oy =>
        rw [hl] at hread
        injection hread with hread
        rw [← hread]
        rcases decryptLoop_val hnd hl ht with ⟨h1, h2⟩ | ⟨x, p, e1, h1, h2, h3⟩
        · exact .inl ⟨h2, h1⟩
        · exact .inr ⟨_, x, h2, h1, fun q hk hv => decryptValue_mono q hk hv h3⟩
  · intro henc t
    rw [if_neg (by rw [henc]; nofun)] at htm hread
    injection htm with htm
    subst htm
    injection hread with hread
    by_cases hin : ∃ c ∈ tm, c.typ = t
    · obtain ⟨c, hc, rfl⟩ := hin
      obtain ⟨a, ha, hfa⟩ := setAllCk_at hp.1 ho hc
      obtain ⟨b, hb', hfb⟩ := setAllCk_at hp.1 ho' hc
      rw [ha] at hb'; injection hb' with hb'; subst hb'
      rw [hfa, hfb]
    · have hno : ∀ c ∈ tm, c.typ ≠ t := fun c hc e => hin ⟨c, hc, e⟩
      rw [setAllCk_find ho hno, setAllCk_find ho' hno, ← hread]
      rfl

end Kry
