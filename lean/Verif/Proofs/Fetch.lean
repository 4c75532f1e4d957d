import Verif.Proofs.Gone

/-!
# What C_GetAttributeValue reports and what the token holds
-/

namespace Kry
open Spec

variable {C : Crypto}

theorem decryptLoop_find {e : Env} {a : Aci} {uid : Bytes} {ts : List Nat} {i : Nat} {o o' : Obj} {u : Nat}
    (hc : decryptLoop C e a uid ts i o = .ok o') (hu : u ∉ ts) : o'.find u = o.find u := by
  induction ts generalizing i o with
  | nil => injection hc with hc; rw [← hc]
  | cons x ts ih =>
    have hx : u ∉ ts := fun h => hu (List.mem_cons_of_mem _ h)
    unfold decryptLoop at hc
    split at hc
    · exact ih hc hx
    · split at hc
      · cases hc
      · split at hc
        · cases hc
        · rename_i o1 h1
          rw [ih hc hx, find_setAttr h1, if_neg]
          show ¬ x = u
          intro e; exact hu (by rw [e]; exact List.mem_cons_self ..)

/-- An attribute type no object class encrypts. -/
def plainTy (ty : Nat) : Prop := CKA_CLASS ≠ ty ∧ ∀ (o : Obj) (F : Factory), objFactory o = .ok F → ty ∉ F.sensitive

theorem plain_of {ty : Nat} (hc : CKA_CLASS ≠ ty)
    (h : allFactories (fun F => !F.sensitive.contains ty) = true) : plainTy ty := by
  refine ⟨hc, ?_⟩
  intro o F hF hm
  obtain ⟨key, hk⟩ := objFactory_mem hF
  have := allFactories_spec h hk
  simp [hm] at this

theorem plain_uid : plainTy CKA_UNIQUE_ID := plain_of (by decide) (by decide +kernel)
theorem plain_token : plainTy CKA_TOKEN := plain_of (by decide) (by decide +kernel)
theorem plain_private : plainTy CKA_PRIVATE := plain_of (by decide) (by decide +kernel)
theorem plain_modifiable : plainTy CKA_MODIFIABLE := plain_of (by decide) (by decide +kernel)
theorem plain_copyable : plainTy CKA_COPYABLE := plain_of (by decide) (by decide +kernel)
theorem plain_destroyable : plainTy CKA_DESTROYABLE := plain_of (by decide) (by decide +kernel)

/-- What is read from storage for a type that is not encrypted is the decoded row. -/
theorem fetch_row {e : Env} {s : Store} {h : Handles} {n : Nat} {hints : List Nat} {o : Obj}
    (ok : TblOk s.db.objs) (hf : s.fetch C e h n hints = .ok o) :
    ∃ u rows, h.get n = some u ∧ rowsOf s.db.objs u = some rows ∧ AMap.get rows CKA_UNIQUE_ID = some (.text u) ∧
      o.handle = n ∧
      ∀ ty, plainTy ty → (ty ∈ fetchHints hints ∨ hints = []) →
        match AMap.get rows ty with
        | none => o.find ty = none
        | some v => ∃ a, decodeRow ty v = .ok a ∧ o.find ty = some a := by
  unfold Store.fetch at hf
  split at hf
  · cases hf
  · rename_i u hu
    split at hf
    · cases hf
    · rename_i o1 h1
      obtain ⟨r, hr, hn, hg, hd⟩ := fetchByUid_ok ok h1
      split at hf
      · cases hf
      · rename_i F hF
        extract_lets dec at hf
        rcases h2 : dec with r | o2
        · simp only [h2] at hf; cases hf
        · simp only [h2] at hf
          injection hf with hf
          refine ⟨u, r, hu, hr, hg, by rw [← hf], fun ty hp hi => ?_⟩
          have e2 : o.find ty = o1.find ty := by
            rw [← hf]
            show o2.find ty = _
            simp only [dec] at h2
            split at h2
            · exact decryptLoop_find h2 (hp.2 _ _ hF)
            · injection h2 with h2; rw [h2]
          rw [e2]
          have := decodeRows_find (nodup_pick hn) hd ty
          have hi' : fetchHints hints = [] ∨ ty ∈ fetchHints hints := by
            rcases hi with hi | hi
            · exact .inr hi
            · left; rw [hi]; rfl
          rw [get_pick hn, if_pos hi'] at this
          have hz : (Obj.new CK_UNAVAILABLE_INFORMATION).find ty = none := by
            unfold Obj.new Obj.find
            have hne : ((Attr.ofUlong CKA_CLASS CK_UNAVAILABLE_INFORMATION).typ == ty) = false := by
              have : (Attr.ofUlong CKA_CLASS CK_UNAVAILABLE_INFORMATION).typ = CKA_CLASS := rfl
              rw [this]; simpa using hp.1
            rw [List.find?_cons, hne]
            rfl
          rw [hz] at this
          exact this

theorem fetch_uid {e : Env} {s : Store} {h : Handles} {n : Nat} {hints : List Nat} {o : Obj} {a : Attr}
    (ok : TblOk s.db.objs) (hf : s.fetch C e h n hints = .ok o)
    (hi : CKA_UNIQUE_ID ∈ fetchHints hints ∨ hints = []) (ha : o.find CKA_UNIQUE_ID = some a) :
    h.get n = some a.value := by
  obtain ⟨u, rows, hu, _, hg, _, hx⟩ := fetch_row ok hf
  have := hx _ plain_uid hi
  rw [hg] at this
  obtain ⟨b, hb, hf⟩ := this
  rw [ha] at hf
  injection hf with hf
  unfold decodeRow at hb
  rw [uid_kind] at hb
  injection hb with hb
  rw [hu, hf, ← hb]
  rfl

/-- Two readings of one object agree on what both asked for. -/
theorem fetch_agree {e e' : Env} {s : Store} {h : Handles} {n ty : Nat} {hints hints' : List Nat} {o o' : Obj}
    (ok : TblOk s.db.objs) (h1 : s.fetch C e h n hints = .ok o) (h2 : s.fetch C e' h n hints' = .ok o')
    (hp : plainTy ty) (hi : ty ∈ fetchHints hints ∨ hints = []) (hi' : ty ∈ fetchHints hints' ∨ hints' = []) :
    o.find ty = o'.find ty := by
  obtain ⟨u, r, hu, hr, _, _, hx⟩ := fetch_row ok h1
  obtain ⟨u', r', hu', hr', _, _, hx'⟩ := fetch_row ok h2
  rw [hu] at hu'; injection hu' with hu'; subst hu'
  rw [hr] at hr'; injection hr' with hr'; subst hr'
  have a := hx ty hp hi
  have b := hx' ty hp hi'
  cases hg : AMap.get r ty with
  | none => rw [hg] at a b; rw [a, b]
  | some v =>
    rw [hg] at a b
    obtain ⟨x, hx, ex⟩ := a
    obtain ⟨y, hy, ey⟩ := b
    rw [hx] at hy
    injection hy with hy
    rw [ex, ey, hy]

theorem mem_fetchHints {l : List Nat} {t : Nat} (h : t ∈ l) : t ∈ fetchHints l := by
  have am : ∀ {l : List Nat} {t u : Nat}, t ∈ l → t ∈ addMissing l u := by
    intro l t u h
    unfold addMissing
    split
    · exact h
    · exact List.mem_append_left _ h
  unfold fetchHints
  split
  · rename_i e; rw [e] at h; cases h
  · exact am (am (am (am (am h))))

/-! ## Sessions and slots -/

section
variable {M : Mechs} {O : Oracle}

theorem onSlot_iff {s : St} (hi : Inv s) {h i : Nat} : onSlot M C O s h i ↔ AMap.get s.smap h = some i := by
  constructor
  · rintro ⟨e, st, fl, ho⟩
    unfold step at ho
    simp only at ho
    split at ho
    · cases ho
    · rename_i j sl x hg
      obtain ⟨_, hm, hs, hx⟩ := getSession_ok hg
      have ok := hi.slot j sl hs
      injection ho with ho
      rw [ok.here h x hx] at ho
      rw [← ho]; exact hm
  · intro hm
    obtain ⟨sl, x, hg, hs, hx⟩ := getSession_live hi hm
    refine ⟨⟨fun _ => none, fun _ => [], fun _ => []⟩, x.state, x.flags, ?_⟩
    unfold step
    simp only [hg]
    show Out.sessInfo x.slot x.state x.flags = _
    rw [(hi.slot i sl hs).here h x hx]

/-- What the token gives C_GetAttributeValue to work on. -/
def Token.looked (C : Crypto) (e : Env) (t : Token) (n : Nat) (hints : List Nat) : Res Obj :=
  match AMap.get t.sess n with
  | some o => .ok o
  | none => t.store.fetch C e t.handles n hints

/-- A reported value is the value of an attribute of the object behind the handle. -/
theorem reports_obj {s : St} (hi : Inv s) {h n ty : Nat} {v : Bytes} (hr : reports M C O s h n ty v) :
    ∃ i sl x e hints o a, AMap.get s.smap h = some i ∧ AMap.get s.slots i = some sl ∧
      AMap.get sl.sessions h = some x ∧ sl.token.looked C e n hints = .ok o ∧ ty ∈ hints ∧
      (sl.token.loggedIn = false → CKA_TOKEN ∈ hints ∧ CKA_PRIVATE ∈ hints ∧ ¬ (o.isToken = true ∧ o.isPrivate = true)) ∧
      o.find ty = some a ∧ (∃ F, objFactory o = .ok F) ∧ a.value = v := by
  obtain ⟨e, q, q', hq, hnull, ho, hv⟩ := hr
  unfold step at ho
  simp only at ho
  split at ho
  · cases ho
  · rename_i i sl x hg
    obtain ⟨_, hm, hs, hx⟩ := getSession_ok hg
    simp only [sessStep] at ho
    split at ho
    · cases ho
    · simp only at ho
      unfold Token.getObjectAttrs at ho
      extract_lets hints obj at ho
      rcases hobj : obj with r | o
      · simp only [hobj] at ho; cases ho
      · simp only [hobj] at ho
        split at ho
        · cases ho
        · rename_i hl
          refine ⟨i, sl, x, e, hints, o, ?_⟩
          unfold getObjectAttributes at ho
          extract_lets sens at ho
          clear_value sens
          split at ho
          · cases ho
          · rename_i F hF
            simp only [getLoop] at ho
            cases hone : getOne F.attrs sens o q with
            | mk a' err =>
              rw [hone] at ho
              cases err with
              | some r => cases ho
              | none =>
                injection ho with _ ho
                injection ho with ho _
                subst ho
                unfold getOne at hone
                split at hone
                · cases hone
                · split at hone
                  · cases hone
                  · split at hone
                    · cases hone
                    · rename_i a ha
                      rw [hnull] at hone
                      refine ⟨a, hm, hs, hx, hobj, ?_, ?_, ?_, ⟨F, hF⟩, ?_⟩
                      · simp [hints, hq]
                      · intro hn
                        simp only [hints, hn]
                        refine ⟨by simp, by simp, ?_⟩
                        rintro ⟨h1, h2⟩
                        rw [hn, h1, h2] at hl
                        exact hl rfl
                      · rw [← hq]; exact ha
                      · repeat' split at hone
                        all_goals first
                          | (cases hone; done)
                          | (exfalso; rename_i hb; cases hb; done)
                          | (injection hone with hone _; rw [hv, ← hone]; simp)

/-- A reported unique id is the one behind the handle. -/
theorem reports_uid {s : St} (hi : Inv s) (hv : HInv s) (ht : TInv s) {h n : Nat} {u : Bytes}
    (hr : reports M C O s h n CKA_UNIQUE_ID u) :
    ∃ i sl, AMap.get s.smap h = some i ∧ AMap.get s.slots i = some sl ∧ sl.token.handles.get n = some u := by
  obtain ⟨i, sl, x, e, hints, o, a, hm, hs, hx, ho, hin, _, hf, _, hval⟩ := reports_obj hi hr
  refine ⟨i, sl, hm, hs, ?_⟩
  unfold Token.looked at ho
  split at ho
  · rename_i o' ho'
    injection ho with ho
    subst ho
    obtain ⟨_, u', hu', hg⟩ := (hv i sl hs).ok.sess n _ ho'
    unfold Obj.getStr at hg
    rw [hf] at hg
    rw [hu', toStr_val hg, hval]
  · rw [fetch_uid (ht.slots i sl hs) ho (.inl (mem_fetchHints hin)) hf, hval]

end

end Kry
