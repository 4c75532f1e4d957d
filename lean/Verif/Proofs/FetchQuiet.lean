import Verif.Proofs.Fetch

/-!
# Reading objects when storage works

If the whole object can be read, any part of it can.
-/

namespace Kry
open Spec
variable {C : Crypto}

theorem quiet_sub {e : Env} (q : quiet e) (i : Nat) : quiet (e.sub i) := fun p => q (i :: p)
theorem quiet_fails {e : Env} (q : quiet e) : e.fails = none := q []

theorem decodeRows_sub {rows : List (Nat × DbVal)} {o o' : Obj} (h : decodeRows o rows = .ok o')
    (f : Nat × DbVal → Bool) (x : Obj) : ∃ y, decodeRows x (rows.filter f) = .ok y := by
  induction rows generalizing o x with
  | nil => exact ⟨x, rfl⟩
  | cons p rows ih =>
    obtain ⟨t, v⟩ := p
    unfold decodeRows at h
    split at h
    · cases h
    · rename_i a ha
      split at h
      · cases h
      · rename_i o1 h1
        rw [List.filter_cons]
        split
        · unfold decodeRows
          rw [ha]
          simp only
          have : ∃ x1, x.setAttr a = .ok x1 := by
            unfold Obj.setAttr at h1 ⊢
            split at h1
            · rename_i hc
              rw [if_pos hc]
              split at h1
              · cases h1
              · rename_i c hc'; exact ⟨_, rfl⟩
            · rename_i hc
              rw [if_neg hc]
              exact ⟨_, rfl⟩
          obtain ⟨x1, hx⟩ := this
          rw [hx]
          exact ih h x1
        · exact ih h x

/-- The class and type of an object decide its factory. -/
theorem objFactory_congr {a b : Obj} (h1 : a.find CKA_CLASS = b.find CKA_CLASS)
    (h2 : a.find CKA_CERTIFICATE_TYPE = b.find CKA_CERTIFICATE_TYPE)
    (h3 : a.find CKA_KEY_TYPE = b.find CKA_KEY_TYPE) : objFactory a = objFactory b := by
  unfold objFactory Obj.getUlong
  rw [h1, h2, h3]

theorem decryptLoop_sub {e e' : Env} (q' : quiet e') {a : Aci} {uid : Bytes} {ts : List Nat} {i j : Nat} {o o' x : Obj}
    (h : decryptLoop C e a uid ts i o = .ok o')
    (hx : ∀ t ∈ ts, x.find t = none ∨ x.find t = o.find t) :
    ∃ y, decryptLoop C e' a uid ts j x = .ok y := by
  induction ts generalizing i j o x with
  | nil => exact ⟨x, rfl⟩
  | cons t ts ih =>
    unfold decryptLoop at h ⊢
    rcases hx t (List.mem_cons_self ..) with hn | hn
    · rw [hn]
      simp only
      split at h
      · exact ih h (fun u hu => hx u (List.mem_cons_of_mem _ hu))
      · split at h
        · cases h
        · split at h
          · cases h
          · rename_i o1 h1
            refine ih h (fun u hu => ?_)
            rcases hx u (List.mem_cons_of_mem _ hu) with hu' | hu'
            · exact .inl hu'
            · rw [find_setAttr h1]
              split
              · rename_i e1
                have : t = u := e1
                left; rw [← this]; exact hn
              · exact .inr hu'
    · rw [hn]
      split at h
      · rename_i hz
        exact ih h (fun u hu => hx u (List.mem_cons_of_mem _ hu))
      · rename_i v hv
        split at h
        · cases h
        · rename_i p hp
          have hp' : a.decryptValue C (e'.sub j) uid v.value = .ok p := by
            unfold Aci.decryptValue at hp ⊢
            split at hp
            · rename_i k hk
              unfold decryptData at hp ⊢
              split at hp
              · cases hp
              · rename_i d hd
                split at hp
                · cases hp
                · rename_i hver
                  rw [if_neg hver]
                  split at hp
                  · cases hp
                  · rename_i info hinfo
                    rw [quiet_fails (quiet_sub q' j)]
                    split at hp
                    · cases hp
                    · exact hp
            · cases hp
          rw [hp']
          simp only
          split at h
          · cases h
          · rename_i o1 h1
            have : ∃ x1, x.setAttr (Attr.ofBytes t p) = .ok x1 := by
              unfold Obj.setAttr at h1 ⊢
              split at h1
              · rename_i hc
                rw [if_pos hc]
                split at h1
                · cases h1
                · exact ⟨_, rfl⟩
              · rename_i hc
                rw [if_neg hc]
                exact ⟨_, rfl⟩
            obtain ⟨x1, hx1⟩ := this
            rw [hx1]
            simp only
            refine ih h (fun u hu => ?_)
            rw [find_setAttr h1, find_setAttr hx1]
            split
            · exact .inr rfl
            · exact hx u (List.mem_cons_of_mem _ hu)

theorem plain_keyType : plainTy CKA_KEY_TYPE := plain_of (by decide) (by decide +kernel)
theorem plain_certType : plainTy CKA_CERTIFICATE_TYPE := plain_of (by decide) (by decide +kernel)
theorem class_plain {o : Obj} {F : Factory} (hF : objFactory o = .ok F) : CKA_CLASS ∉ F.sensitive := by
  intro hm
  obtain ⟨key, hk⟩ := objFactory_mem hF
  have h : allFactories (fun F => !F.sensitive.contains CKA_CLASS) = true := by decide +kernel
  have := allFactories_spec h hk
  simp [hm] at this

/-- Decryption keeps the factory. -/
theorem decryptLoop_factory {e : Env} {a : Aci} {uid : Bytes} {i : Nat} {o o' : Obj} {F : Factory}
    (hF : objFactory o = .ok F) (h : decryptLoop C e a uid F.sensitive i o = .ok o') : objFactory o' = .ok F := by
  rw [← hF]
  exact objFactory_congr (decryptLoop_find h (class_plain hF)) (decryptLoop_find h (plain_certType.2 _ _ hF))
    (decryptLoop_find h (plain_keyType.2 _ _ hF))

/-- An object fetched from storage has a factory. -/
theorem fetch_factory {e : Env} {s : Store} {h : Handles} {n : Nat} {hints : List Nat} {o : Obj}
    (hf : s.fetch C e h n hints = .ok o) : ∃ F, objFactory o = .ok F := by
  unfold Store.fetch at hf
  split at hf
  · cases hf
  · split at hf
    · cases hf
    · split at hf
      · cases hf
      · rename_i F hF
        extract_lets dec at hf
        rcases h2 : dec with r | o2
        · simp only [h2] at hf; cases hf
        · simp only [h2] at hf
          injection hf with hf
          refine ⟨F, ?_⟩
          have : objFactory o = objFactory o2 := by
            rw [← hf]; exact objFactory_congr rfl rfl rfl
          rw [this]
          simp only [dec] at h2
          split at h2
          · exact decryptLoop_factory hF h2
          · injection h2 with h2; rw [← h2]; exact hF

theorem mem_addMissing (l : List Nat) (u : Nat) : u ∈ addMissing l u := by
  unfold addMissing
  split
  · rename_i h; simpa using h
  · exact List.mem_append_right _ (List.mem_cons_self ..)

theorem addMissing_mem {l : List Nat} {t u : Nat} (h : t ∈ l) : t ∈ addMissing l u := by
  unfold addMissing
  split
  · exact h
  · exact List.mem_append_left _ h

theorem hints_types {l : List Nat} (h : l ≠ []) : CKA_CLASS ∈ fetchHints l ∧ CKA_KEY_TYPE ∈ fetchHints l ∧
    CKA_CERTIFICATE_TYPE ∈ fetchHints l := by
  unfold fetchHints
  rw [if_neg h]
  refine ⟨?_, ?_, ?_⟩
  · exact addMissing_mem (addMissing_mem (addMissing_mem (addMissing_mem (mem_addMissing _ _))))
  · exact addMissing_mem (addMissing_mem (addMissing_mem (mem_addMissing _ _)))
  · exact addMissing_mem (addMissing_mem (mem_addMissing _ _))

theorem addMissing_ne {l : List Nat} {u : Nat} (h : l ≠ []) : addMissing l u ≠ [] := by
  unfold addMissing
  split
  · exact h
  · simp

theorem fetchHints_ne {l : List Nat} (h : l ≠ []) : fetchHints l ≠ [] := by
  unfold fetchHints
  rw [if_neg h]
  exact addMissing_ne (addMissing_ne (addMissing_ne (addMissing_ne (addMissing_ne h))))

/-- If the whole object can be read, any part of it can. -/
theorem fetchByUid_sub {e e' : Env} (q' : quiet e') {db : Db} {u : Bytes} {hints : List Nat} {o : Obj} {F : Factory}
    (ok : TblOk db.objs) (hh : ∀ t ∈ hints, t < 2 ^ 32) (hc : hints ≠ [] → CKA_CLASS ∈ hints)
    (h : db.fetchByUid e u [] = .ok o) (hF : objFactory o = .ok F) :
    ∃ o', db.fetchByUid e' u hints = .ok o' ∧ ∀ ty, (hints = [] ∨ ty ∈ hints → o'.find ty = o.find ty) ∧
      (ty ≠ CKA_CLASS → ¬ (hints = [] ∨ ty ∈ hints) → o'.find ty = none) := by
  have h0 := h
  obtain ⟨r, hr, hn, hg, hd⟩ := fetchByUid_ok ok h
  unfold Db.fetchByUid at h
  rw [if_neg (by simp)] at h
  split at h
  · cases h
  · simp only [if_pos] at h
    split at h
    · cases h
    · rename_i o1 h1
      injection h with h; subst h
      obtain ⟨g, hg1, hd1⟩ := rowsToObjects_one h1
      have hgm : g ∈ db.objs ∧ hasRow g.2 CKA_UNIQUE_ID (.text u) = true := by
        have : g ∈ [g] := List.mem_cons_self ..
        rw [← hg1] at this
        exact List.mem_filter.1 this
      have hrg : r = g.2 := by
        have := (rowsOf_iff ok).2 ⟨g.1, hgm.1, hgm.2⟩
        rw [hr] at this; injection this
      subst hrg
      have hcls : ∃ v, AMap.get g.2 CKA_CLASS = some v := by
        cases hx : AMap.get g.2 CKA_CLASS with
        | some v => exact ⟨v, rfl⟩
        | none =>
          exfalso
          have := decodeRows_find hn hd1 CKA_CLASS
          rw [hx] at this
          have e1 : objFactory o1 = objFactory { o1 with attrs := o1.attrs } := rfl
          unfold objFactory Obj.getUlong at hF
          rw [this] at hF
          have e2 : (Obj.new CK_UNAVAILABLE_INFORMATION).find CKA_CLASS =
            some (Attr.ofUlong CKA_CLASS CK_UNAVAILABLE_INFORMATION) := by decide +kernel
          rw [e2] at hF
          have e3 : (Attr.ofUlong CKA_CLASS CK_UNAVAILABLE_INFORMATION).toUlong = .ok CK_UNAVAILABLE_INFORMATION := by
            decide +kernel
          simp only [e3] at hF
          have e4 : ¬ CK_UNAVAILABLE_INFORMATION = CKO_CERTIFICATE := by decide +kernel
          have e5 : keyClass CK_UNAVAILABLE_INFORMATION = false := by decide +kernel
          rw [if_neg e4, e5] at hF
          have e6 : (match getFactory CK_UNAVAILABLE_INFORMATION 0 with | .ok _ => false | .error _ => true) = true := by
            decide +kernel
          simp only [Bool.false_eq_true, if_false] at hF
          rw [hF] at e6
          cases e6
      unfold Db.fetchByUid
      have hbig : ¬ (hints.any (fun t => decide (¬ t < 2 ^ 32))) = true := by
        rw [List.any_eq_true]
        rintro ⟨t, ht, hx⟩
        have := hh t ht
        simp at hx
        omega
      rw [if_neg hbig, quiet_fails q']
      simp only
      have hg2 : (db.objs.filter fun g => hasRow g.2 CKA_UNIQUE_ID (.text u)) = [g] := hg1
      rw [hg2]
      obtain ⟨y, hy⟩ := decodeRows_sub hd1 (fun p => hints.contains p.1) (Obj.new CK_UNAVAILABLE_INFORMATION)
      have hpick : ∃ y, decodeRows (Obj.new CK_UNAVAILABLE_INFORMATION) (pick hints g.2) = .ok y := by
        unfold pick
        split
        · exact ⟨_, hd1⟩
        · exact ⟨y, hy⟩
      obtain ⟨y, hy⟩ := hpick
      refine ⟨y, ?_, ?_⟩
      · have : (if hints = [] then [g] else ([g].map fun g => (g.1, g.2.filter fun r => hints.contains r.1)).filter
            fun g => !g.2.isEmpty) = [(g.1, pick hints g.2)] := by
          unfold pick
          split
          · rfl
          · rename_i hne
            obtain ⟨v, hv⟩ := hcls
            have hm : (CKA_CLASS, v) ∈ g.2.filter fun r => hints.contains r.1 := by
              rw [List.mem_filter]
              refine ⟨(AMap.mem_iff_get hn).2 hv, ?_⟩
              simpa using hc hne
            have hz : (g.2.filter fun r => hints.contains r.1) ≠ [] := List.ne_nil_of_mem hm
            have hz' : (g.2.filter fun r => hints.contains r.1).isEmpty = false := by
              simpa using hz
            simp only [List.map_cons, List.map_nil, List.filter_cons, List.filter_nil, hz']
            rfl
        rw [this]
        simp only [rowsToObjects, hy]
        simp
      · intro ty
        have a := decodeRows_find hn hd1 ty
        have b := decodeRows_find (nodup_pick hn) hy ty
        rw [get_pick hn] at b
        constructor
        · intro hin
          rw [if_pos hin] at b
          cases hx : AMap.get g.2 ty with
          | none => rw [hx] at a b; rw [a, b]
          | some v =>
            rw [hx] at a b
            obtain ⟨x1, d1, f1⟩ := a
            obtain ⟨x2, d2, f2⟩ := b
            rw [d1] at d2; injection d2 with d2
            rw [f1, f2, d2]
        · intro hne hin
          rw [if_neg hin] at b
          have b : y.find ty = (Obj.new CK_UNAVAILABLE_INFORMATION).find ty := b
          rw [b]
          unfold Obj.new Obj.find
          have hne : ((Attr.ofUlong CKA_CLASS CK_UNAVAILABLE_INFORMATION).typ == ty) = false := by
            have : (Attr.ofUlong CKA_CLASS CK_UNAVAILABLE_INFORMATION).typ = CKA_CLASS := rfl
            rw [this]; simpa using fun h => hne h.symm
          rw [List.find?_cons, hne]
          rfl
    · cases h

theorem fetch_sub {e e' : Env} (q' : quiet e') {s : Store} {h : Handles} {n : Nat} {hints : List Nat} {o : Obj}
    (ok : TblOk s.db.objs) (hh : ∀ t ∈ fetchHints hints, t < 2 ^ 32)
    (hf : s.fetch C e h n [] = .ok o) :
    ∃ o', s.fetch C e' h n hints = .ok o' ∧ objFactory o' = objFactory o := by
  unfold Store.fetch at hf ⊢
  split at hf
  · cases hf
  · rename_i u hu
    simp only
    split at hf
    · cases hf
    · rename_i o1 h1
      have hz : fetchHints [] = [] := rfl
      rw [hz] at h1
      split at hf
      · cases hf
      · rename_i F hF
        obtain ⟨y, hy, hfind⟩ := fetchByUid_sub (quiet_sub q' 0) ok hh (fun hne => by
            by_cases hx : hints = []
            · rw [hx] at hne; exact absurd rfl hne
            · exact (hints_types hx).1) h1 hF
        rw [hy]
        simp only
        have hty : ∀ t, t = CKA_CLASS ∨ t = CKA_KEY_TYPE ∨ t = CKA_CERTIFICATE_TYPE → y.find t = o1.find t := by
          intro t ht
          refine (hfind t).1 ?_
          by_cases hx : hints = []
          · left; rw [hx]; rfl
          · right
            have := hints_types hx
            rcases ht with rfl | rfl | rfl
            · exact this.1
            · exact this.2.1
            · exact this.2.2
        have hFy : objFactory y = .ok F := by
          rw [← hF]
          exact objFactory_congr (hty _ (.inl rfl)) (hty _ (.inr (.inr rfl))) (hty _ (.inr (.inl rfl)))
        rw [hFy]
        simp only
        have : ∃ o', (if s.aci.encrypt = true then decryptLoop C (e'.sub 1) s.aci u F.sensitive 0 y
            else .ok y) = .ok o' := by
          simp only at hf
          split
          · rename_i henc
            rw [if_pos henc] at hf
            split at hf
            · cases hf
            · rename_i o2 h2
              refine decryptLoop_sub (quiet_sub q' 1) h2 ?_
              intro t ht
              by_cases hx : fetchHints hints = [] ∨ t ∈ fetchHints hints
              · exact .inr ((hfind t).1 hx)
              · left
                refine (hfind t).2 ?_ hx
                rintro rfl
                exact class_plain hF ht
          · exact ⟨y, rfl⟩
        obtain ⟨o', ho'⟩ := this
        rw [ho']
        refine ⟨_, rfl, ?_⟩
        have e1 : objFactory o' = .ok F := by
          split at ho'
          · exact decryptLoop_factory hFy ho'
          · injection ho' with ho'; rw [← ho']; exact hFy
        have e2 : objFactory o = .ok F := by
          simp only at hf
          split at hf
          · cases hf
          · rename_i o2 h2
            injection hf with hf
            rw [← hf]
            refine (objFactory_congr rfl rfl rfl).trans (b := objFactory o2) ?_
            split at h2
            · exact decryptLoop_factory hF h2
            · injection h2 with h2; rw [← h2]; exact hF
        rw [e2, ← e1]
        exact objFactory_congr rfl rfl rfl

end Kry
