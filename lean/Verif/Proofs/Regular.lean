import Verif.Spec.Regular
import Verif.Proofs.Orderly
import Verif.Proofs.ReadBack

/-! # The objects that the factories make are regular -/

namespace Kry
open Spec

theorem inForm_canon {a : Attr} (h : Canon a) : InForm a := .inl h

theorem inForm_fromCk {c : CkAttr} {a : Attr} (h : Attr.fromCk c = .ok a) : InForm a := inForm_canon (canon_fromCk h)

theorem inForm_bool (t : Nat) (b : Bool) (h : attrKind t = some .bool) : InForm (Attr.ofBool t b) :=
  .inl ⟨h, by cases b <;> simp [formOf, Attr.ofBool]⟩

theorem inForm_ulong (t v : Nat) (h : attrKind t = some .num) : InForm (Attr.ofUlong t v) :=
  .inl ⟨h, ulongBytes_length _⟩

theorem inForm_bytes (t : Nat) (v : Bytes) (h : attrKind t = some .bytes) : InForm (Attr.ofBytes t v) :=
  .inl ⟨h, trivial⟩

theorem inForm_neat {a : Attr} (h : InForm a) : Neat a := by
  rcases h with h | ⟨h, _⟩
  · exact neat_canon h
  · exact neat_other (by rw [h]; simp) (by rw [h]; simp)

theorem regular_orderly {o : Obj} (h : Regular o) : Orderly o := by
  refine ⟨fun a ha => inForm_neat (h.form a ha), ?_⟩
  cases hf : o.find CKA_CLASS with
  | none => exact absurd hf h.has
  | some a =>
    have := h.cls a (find_mem hf) (find_typ hf)
    refine ⟨a, rfl, ?_⟩
    rw [this]
    unfold Attr.toUlong Attr.ofUlong
    simp only
    rw [if_neg (by simp), if_neg (by rw [ulongBytes_length]; simp), fromLE_ulongBytes _ h.lt]

theorem regular_new (c : Nat) (h : c < 2 ^ 64) : Regular (Obj.new c) := by
  have hm : ∀ a ∈ (Obj.new c).attrs, a = Attr.ofUlong CKA_CLASS c := by
    intro a ha; simpa [Obj.new] using ha
  refine ⟨fun a ha => ?_, ?_, fun a ha _ => hm a ha, ?_, h⟩
  · rw [hm a ha]; exact inForm_ulong _ _ (by decide +kernel)
  · simp [Obj.new, Attr.ofUlong]
  · simp [Obj.new, Obj.find, Attr.ofUlong]

theorem find_none {o : Obj} {t : Nat} (h : o.find t = none) : ∀ a ∈ o.attrs, a.typ ≠ t := by
  intro a ha e
  unfold Obj.find at h
  rw [List.find?_eq_none] at h
  exact h a ha (by simp [e])

theorem regular_push {o : Obj} {a : Attr} (h : Regular o) (ha : InForm a) (hn : o.find a.typ = none) :
    Regular (o.push a) := by
  have hc : a.typ ≠ CKA_CLASS := fun e => h.has (e ▸ hn)
  have mem : ∀ b ∈ (o.push a).attrs, b ∈ o.attrs ∨ b = a := by
    intro b hb; simpa [Obj.push] using hb
  refine ⟨fun b hb => ?_, ?_, fun b hb ht => ?_, ?_, h.lt⟩
  · rcases mem b hb with hb | rfl
    · exact h.form b hb
    · exact ha
  · have : ((o.push a).attrs.filter fun a => a.typ != CKA_CLASS) = (o.attrs.filter fun a => a.typ != CKA_CLASS) ++ [a] := by
      simp [Obj.push, List.filter_append, hc]
    rw [this, List.map_append, List.nodup_append]
    refine ⟨h.once, by simp, ?_⟩
    intro x hx y hy e
    obtain ⟨b, hb, rfl⟩ := List.mem_map.1 hx
    simp at hy
    subst hy
    exact find_none hn b (List.mem_filter.1 hb).1 e
  · rcases mem b hb with hb | rfl
    · exact h.cls b hb ht
    · exact absurd ht hc
  · unfold Obj.find Obj.push
    simp only [List.find?_append]
    have := h.has
    unfold Obj.find at this
    cases hx : List.find? (fun a => a.typ == CKA_CLASS) o.attrs with
    | none => exact absurd hx this
    | some b => simp

/-- CKA_CLASS once more. -/
theorem regular_pushCls {o : Obj} {a : Attr} (h : Regular o) (ha : a = Attr.ofUlong CKA_CLASS o.cls) :
    Regular (o.push a) := by
  have mem : ∀ b ∈ (o.push a).attrs, b ∈ o.attrs ∨ b = a := by
    intro b hb; simpa [Obj.push] using hb
  refine ⟨fun b hb => ?_, ?_, fun b hb ht => ?_, ?_, h.lt⟩
  · rcases mem b hb with hb | rfl
    · exact h.form b hb
    · rw [ha]; exact inForm_ulong _ _ (by decide +kernel)
  · have : ((o.push a).attrs.filter fun a => a.typ != CKA_CLASS) = (o.attrs.filter fun a => a.typ != CKA_CLASS) := by
      simp [Obj.push, List.filter_append, ha, Attr.ofUlong]
    rw [this]; exact h.once
  · rcases mem b hb with hb | rfl
    · exact h.cls b hb ht
    · exact ha
  · unfold Obj.find Obj.push
    simp only [List.find?_append]
    have := h.has
    unfold Obj.find at this
    cases hx : List.find? (fun a => a.typ == CKA_CLASS) o.attrs with
    | none => exact absurd hx this
    | some b => simp

theorem once_setList {l : List Attr} {a : Attr} (hc : a.typ ≠ CKA_CLASS)
    (h : ((l.filter fun a => a.typ != CKA_CLASS).map Attr.typ).Nodup) :
    (((Obj.setList l a).filter fun a => a.typ != CKA_CLASS).map Attr.typ).Nodup := by
  have key : ((Obj.setList l a).filter fun a => a.typ != CKA_CLASS).map Attr.typ =
      if a.typ ∈ (l.filter fun a => a.typ != CKA_CLASS).map Attr.typ then (l.filter fun a => a.typ != CKA_CLASS).map Attr.typ
      else (l.filter fun a => a.typ != CKA_CLASS).map Attr.typ ++ [a.typ] := by
    clear h
    induction l with
    | nil => simp [Obj.setList, hc]
    | cons b l ih =>
      unfold Obj.setList
      by_cases e : b.typ = a.typ
      · have hb : b.typ ≠ CKA_CLASS := e ▸ hc
        simp [e, hc, hb]
      · rw [if_neg e]
        by_cases hb : b.typ = CKA_CLASS
        · simp only [List.filter_cons, hb]
          simpa using ih
        · simp only [List.filter_cons, bne_iff_ne, ne_eq, hb, not_false_eq_true, if_true, List.map_cons, ih]
          have : (a.typ ∈ b.typ :: (l.filter fun a => a.typ != CKA_CLASS).map Attr.typ) =
              (a.typ ∈ (l.filter fun a => a.typ != CKA_CLASS).map Attr.typ) := by
            rw [List.mem_cons]
            exact propext ⟨fun h => h.resolve_left (fun h => e h.symm), .inr⟩
          simp only [this]
          split <;> rfl
  rw [key]
  split
  · exact h
  · rename_i hn
    rw [List.nodup_append]
    refine ⟨h, by simp, ?_⟩
    intro x hx y hy e
    simp at hy
    subst hy; subst e
    exact hn hx

theorem find_setList_cls {l : List Attr} {a : Attr} (hc : a.typ ≠ CKA_CLASS) :
    (Obj.setList l a).find? (fun a => a.typ == CKA_CLASS) = l.find? (fun a => a.typ == CKA_CLASS) := by
  induction l with
  | nil => simp [Obj.setList, hc]
  | cons b l ih =>
    unfold Obj.setList
    split
    · rename_i e
      have hb : b.typ ≠ CKA_CLASS := e ▸ hc
      simp [List.find?_cons, hc, hb]
    · simp only [List.find?_cons, ih]

theorem regular_put {o : Obj} {a : Attr} (h : Regular o) (ha : InForm a) (hc : a.typ ≠ CKA_CLASS) : Regular (o.put a) := by
  refine ⟨fun b hb => ?_, once_setList hc h.once, fun b hb ht => ?_, ?_, h.lt⟩
  · rcases mem_setList hb with rfl | hb
    · exact ha
    · exact h.form b hb
  · rcases mem_setList hb with rfl | hb
    · exact absurd ht hc
    · exact h.cls b hb ht
  · have := h.has
    unfold Obj.find Obj.put at *
    simp only [find_setList_cls hc]
    exact this

theorem regular_setAttr {o o' : Obj} {a : Attr} (hs : o.setAttr a = .ok o') (h : Regular o) (ha : InForm a)
    (hc : a.typ ≠ CKA_CLASS) : Regular o' := by
  unfold Obj.setAttr at hs
  rw [if_neg hc] at hs
  injection hs with hs
  rw [← hs]
  exact regular_put h ha hc

theorem bool_ne_class {t : Nat} (ht : attrKind t = some .bool) : t ≠ CKA_CLASS := by
  rintro rfl
  exact absurd ht (by decide +kernel)

theorem regular_setBool {o : Obj} {t : Nat} {b : Bool} (h : Regular o) (ht : attrKind t = some .bool) :
    Regular (o.setBool t b) :=
  regular_put (a := Attr.ofBool t b) h (inForm_bool _ _ ht) (bool_ne_class ht)

theorem ulong_eq {a : Attr} {n : Nat} (hc : Canon a) (ht : a.typ = CKA_CLASS) (h : a.toUlong = .ok n) :
    a = Attr.ofUlong CKA_CLASS n := by
  obtain ⟨t, k, v⟩ := a
  obtain ⟨hk, hv⟩ := hc
  simp only at ht hk hv
  subst ht
  have : attrKind CKA_CLASS = some .num := by decide +kernel
  rw [this] at hk
  injection hk with hk
  subst hk
  simp only at hv
  unfold Attr.toUlong at h
  simp only at h
  rw [if_neg (by simp), if_neg (by simp [hv])] at h
  injection h with h
  unfold Attr.ofUlong
  rw [← h]
  congr 1
  unfold ulongBytes
  have := toLE_fromLE v
  rw [hv] at this
  exact this.symm

theorem toUlong_fromCk {c : CkAttr} {a : Attr} {n : Nat} (h : Attr.fromCk c = .ok a) (hk : attrKind c.typ = some .num)
    (hn : c.toUlong = .ok n) : a.toUlong = .ok n := by
  unfold Attr.fromCk at h
  rw [hk] at h
  simp only [hn] at h
  injection h with h
  subst h
  have : n < 2 ^ 64 := by
    unfold CkAttr.toUlong at hn
    repeat' split at hn
    all_goals first
      | (cases hn; done)
      | (injection hn with hn; rw [← hn]; exact fromLE_lt8 _ (by simp_all [PVal.len, ulongSize]))
  unfold Attr.toUlong Attr.ofUlong
  simp only
  rw [if_neg (by simp), if_neg (by rw [ulongBytes_length]; simp), fromLE_ulongBytes _ this]

theorem regular_createLoop {fa : List FAttr} {u : Nat} {tm : Template} {o o' : Obj}
    (hc : createLoop fa u o tm = .ok o') (h : Regular o) : Regular o' := by
  induction tm generalizing o with
  | nil => injection hc with hc; rw [← hc]; exact h
  | cons c tm ih =>
    unfold createLoop at hc
    split at hc
    · cases hc
    split at hc
    · cases hc
    simp only at hc
    split at hc
    · cases hc
    rename_i hd
    split at hc
    · exact ih hc h
    split at hc
    · cases hc
    rename_i a ha
    have hca := canon_fromCk ha
    have hty : a.typ = c.typ := fromCk_typ ha
    refine ih hc ?_
    split at hd
    · rename_i hn
      exact regular_push h (inForm_canon hca) (by rw [hty]; exact hn)
    · rename_i oa hoa
      split at hd
      · cases hd
      rename_i hcl
      have hcl : oa.typ = CKA_CLASS := Decidable.of_not_not hcl
      have hct : c.typ = CKA_CLASS := (find_typ hoa).symm.trans hcl
      split at hd
      · cases hd
      rename_i n hn
      split at hd
      · cases hd
      rename_i m hm
      split at hd
      · cases hd
      rename_i hnm
      have hnm : n = m := Decidable.of_not_not hnm
      refine regular_pushCls h ?_
      have h1 := h.cls oa (find_mem hoa) hcl
      have h2 : oa.toUlong = .ok o.cls := by
        obtain ⟨a', ha', hu⟩ := (regular_orderly h).cls
        rw [hct, ha'] at hoa
        injection hoa with hoa
        rw [← hoa]; exact hu
      rw [hm] at h2
      injection h2 with h2
      have h3 : a.toUlong = .ok n := by
        exact toUlong_fromCk ha (by rw [hct]; decide +kernel) hn
      rw [ulong_eq hca (hty.trans hct) h3, hnm, h2]


/-! ## Defaults and the factories' own checks -/

/-- Attributes of the tables are in form. -/
def formB (a : Attr) : Bool :=
  attrKind a.typ == some a.atype &&
  match a.atype with
  | .bool => a.value == [0] || a.value == [1]
  | .num => a.value.length == 8
  | .date => a.value == []
  | _ => true

theorem form_of {a : Attr} (h : formB a = true) : InForm a := by
  unfold formB at h
  simp only [Bool.and_eq_true, beq_iff_eq] at h
  refine .inl ⟨h.1, ?_⟩
  have h2 := h.2
  unfold formOf
  split at h2 <;> simp_all

theorem form_tables : allFactories (fun F => F.attrs.all (fun f => !f.hasDefault || (formB f.attr && f.attr.typ == f.typ)) && decide (F.cls < 2 ^ 64)) = true := by
  decide +kernel

theorem regular_defaultsLoop {q : Nat} {fa : List FAttr} {o o' : Obj}
    (hf : ∀ f ∈ fa, f.hasDefault = true → InForm f.attr ∧ f.attr.typ = f.typ)
    (hc : defaultsLoop q o fa = .ok o') (h : Regular o) : Regular o' := by
  induction fa generalizing o with
  | nil => injection hc with hc; rw [← hc]; exact h
  | cons f fa ih =>
    have hr := fun f' h' => hf f' (List.mem_cons_of_mem _ h')
    unfold defaultsLoop at hc
    split at hc
    · exact ih hr hc h
    · rename_i hn
      split at hc
      · rename_i hd
        have := hf f (List.mem_cons_self ..) hd
        exact ih hr hc (regular_push h this.1 (by rw [this.2]; exact hn))
      · split at hc
        · cases hc
        · exact ih hr hc h

theorem regular_generateUnique {o : Obj} {uid : Bytes} (h : Regular o) : Regular (o.generateUnique uid) := by
  unfold Obj.generateUnique
  split
  · exact h
  · rename_i hn
    exact regular_push h (.inl ⟨show attrKind CKA_UNIQUE_ID = some .string by decide +kernel, trivial⟩) (by
      show o.find CKA_UNIQUE_ID = none
      unfold Obj.find
      rw [List.find?_eq_none]
      simpa using hn)

theorem regular_internal {F : Factory} {k : Nat × Nat} (hF : (k, F) ∈ registry) {tm : Template} {a b : Nat} {o : Obj}
    (hc : internalObjectCreate F tm a b = .ok o) : Regular o := by
  have ht := allFactories_spec form_tables hF
  simp only [Bool.and_eq_true, List.all_eq_true, decide_eq_true_eq] at ht
  unfold internalObjectCreate at hc
  split at hc
  · cases hc
  · rename_i o0 h0
    refine regular_defaultsLoop (fun f hf hd => ?_) hc (regular_createLoop h0 (regular_new _ ht.2))
    have := ht.1 f hf
    rw [hd] at this
    simp at this
    exact ⟨form_of this.1, this.2⟩

theorem regular_keyInternal {F : Factory} {k : Nat × Nat} (hF : (k, F) ∈ registry) {uid : Bytes} {tm : Template}
    {a b : Nat} {o : Obj} (hc : internalKeyCreate F uid tm a b = .ok o) : Regular o := by
  unfold internalKeyCreate at hc
  split at hc
  · cases hc
  · rename_i o0 h0
    injection hc with hc; rw [← hc]; exact regular_generateUnique (regular_internal hF h0)

theorem regular_default {F : Factory} {k : Nat × Nat} (hF : (k, F) ∈ registry) {uid : Bytes} {tm : Template} {o : Obj}
    (hc : defaultObjectCreate F uid tm = .ok o) : Regular o := by
  unfold defaultObjectCreate at hc
  split at hc
  · cases hc
  · rename_i o0 h0
    injection hc with hc; rw [← hc]; exact regular_generateUnique (regular_internal hF h0)

theorem regular_keyCreate {F : Factory} {k : Nat × Nat} (hF : (k, F) ∈ registry) {uid : Bytes} {tm : Template} {o : Obj}
    (hc : keyCreate F uid tm = .ok o) : Regular o := by
  unfold keyCreate at hc
  split at hc
  · cases hc
  · rename_i o0 h0
    have hz := regular_keyInternal hF h0
    have hl : attrKind CKA_LOCAL = some .bool := by decide +kernel
    have hs : attrKind CKA_ALWAYS_SENSITIVE = some .bool := by decide +kernel
    have hn : attrKind CKA_NEVER_EXTRACTABLE = some .bool := by decide +kernel
    simp only at hc
    repeat' split at hc
    all_goals
      injection hc with hc; rw [← hc]
      first
        | exact hz
        | exact regular_setBool hz hl
        | exact regular_setBool (regular_setBool hz hs) hn
        | exact regular_setBool (regular_setBool (regular_setBool hz hl) hs) hn

theorem regular_ensureUlong {o o' : Obj} {t v : Nat} (hc : o.ensureUlong t v = .ok o') (h : Regular o)
    (ht : attrKind t = some .num) : Regular o' := by
  unfold Obj.ensureUlong at hc
  split at hc
  · repeat' split at hc
    all_goals first
      | (cases hc; done)
      | (injection hc with hc; rw [← hc]; exact h)
  · injection hc with hc
    rw [← hc]
    refine regular_push h (inForm_ulong _ _ ht) ?_
    assumption

theorem regular_trust {o o' : Obj} (hc : trustChecks o = .ok o') (h : Regular o) : Regular o' := by
  unfold trustChecks at hc
  split at hc
  · cases hc
  · rename_i o1 h1
    have z1 := regular_ensureUlong h1 h (by decide +kernel)
    repeat' split at hc
    all_goals first
      | (cases hc; done)
      | (injection hc with hc; rw [← hc]; exact z1)
      | (injection hc with hc; rw [← hc]; exact regular_put z1 (inForm_ulong _ _ (by decide +kernel)) (by decide))

theorem regular_nssTrust {o o' : Obj} (hc : nssTrustChecks o = .ok o') (h : Regular o) : Regular o' := by
  unfold nssTrustChecks at hc
  repeat' split at hc
  all_goals first
    | (cases hc; done)
    | (injection hc with hc; rw [← hc]; exact regular_ensureUlong (by assumption) h (by decide +kernel))

theorem regular_hotp {o o' : Obj} (hc : hotpValidate o = .ok o') (h : Regular o) : Regular o' := by
  unfold hotpValidate at hc
  split at hc
  · cases hc
  · rename_i o1 h1
    have z1 := regular_ensureUlong h1 h (by decide +kernel)
    split at hc
    · cases hc
    · rename_i o2 h2
      have z2 := regular_ensureUlong h2 z1 (by decide +kernel)
      have z3 : Regular (o2.put (Attr.ofBytes CKA_ALLOWED_MECHANISMS (ulongBytes CKM_HOTP))) :=
        regular_put z2 (.inr ⟨show attrKind CKA_ALLOWED_MECHANISMS = _ by decide +kernel, rfl, by
          show (ulongBytes CKM_HOTP).length % 8 = 0
          rw [ulongBytes_length]⟩) (by decide)
      split at hc
      · cases hc
      · simp only at hc
        repeat' split at hc
        all_goals first
          | (cases hc; done)
          | skip
        all_goals
          injection hc with hc
          subst hc
          rename_i hm _ _
          repeat' split at hm
          all_goals first
            | (cases hm; done)
            | (injection hm with hm; rw [← hm]; exact z2)
            | (injection hm with hm; rw [← hm]; exact z3)

theorem regular_asym {M : Mechs} {O : Oracle} (hM : RegularMechs M O) {k : FactoryKind} {o o' : Obj}
    (hc : asymChecks O k o = .ok o') (h : Regular o) : Regular o' := by
  unfold asymChecks at hc
  split at hc
  · cases hc
  · rename_i l hl
    have hlf := hM.asym _ _ _ hl
    clear hl
    injection hc with hc
    rw [← hc]
    have hm : ∀ a ∈ l.filter (fun a => asymUpdTypes.contains a.typ), a.typ ∈ asymUpdTypes ∧ InForm a := by
      intro a ha
      have := List.mem_filter.1 ha
      exact ⟨by simpa using this.2, hlf a this.1⟩
    generalize l.filter (fun a => asymUpdTypes.contains a.typ) = m at hm
    clear hc hlf
    have hu : ∀ t ∈ asymUpdTypes, t ≠ CKA_CLASS := by decide
    induction m generalizing o with
    | nil => exact h
    | cons a m ih =>
      have := hm a (List.mem_cons_self ..)
      exact ih (o := o.put a) (regular_put h this.2 (hu _ this.1))
        (fun b hb => hm b (List.mem_cons_of_mem _ hb))

theorem regular_rsaInfo {O : Oracle} {o o' : Obj} (hc : rsaPublicKeyInfo O o = .ok o') (h : Regular o) :
    Regular o' := by
  unfold rsaPublicKeyInfo at hc
  repeat' split at hc
  all_goals first | (cases hc; done) | skip
  unfold Obj.ensureBytes at hc
  repeat' split at hc
  all_goals first
    | (cases hc; done)
    | (injection hc with hc; rw [← hc]; exact h)
    | (injection hc with hc; rw [← hc]; exact regular_push h
        (inForm_bytes _ _ (show attrKind CKA_PUBLIC_KEY_INFO = _ by decide +kernel)) (by assumption))

/-- C_CreateObject. -/
theorem regular_create {M : Mechs} {O : Oracle} (hM : RegularMechs M O) {uid : Bytes} {tm : Template} {o : Obj}
    (hc : factoriesCreate O uid tm = .ok o) : Regular o := by
  unfold factoriesCreate at hc
  split at hc
  · cases hc
  · rename_i F hs
    have hmem : ∃ k, (k, F) ∈ registry := by
      unfold createSelect at hs
      split at hs
      · cases hs
      · simp only at hs
        split at hs
        · cases hs
        · exact ⟨_, getFactory_mem hs⟩
    obtain ⟨k, hF⟩ := hmem
    unfold Factory.create at hc
    repeat' split at hc
    all_goals first
      | (cases hc; done)
      | exact regular_default hF hc
      | (injection hc with hc; rw [← hc]; exact regular_default hF (by assumption))
      | exact regular_trust hc (regular_default hF (by assumption))
      | exact regular_nssTrust hc (regular_default hF (by assumption))
      | exact regular_ensureUlong hc (regular_keyCreate hF (by assumption)) (by decide +kernel)
      | exact regular_hotp hc (regular_keyCreate hF (by assumption))
      | exact regular_asym hM hc (regular_keyCreate hF (by assumption))
      | exact regular_rsaInfo hc (regular_keyCreate hF (by assumption))
      | exact regular_hotp hc (regular_put (regular_keyCreate hF (by assumption))
          (inForm_bytes _ _ (by decide +kernel)) (by decide))
      | exact regular_hotp hc (regular_put (regular_keyCreate hF (by assumption))
          (inForm_ulong _ _ (by decide +kernel)) (show CKA_VALUE_LEN ≠ CKA_CLASS by decide))

theorem regular_applyTemplate {tm : Template} {o : Obj} (hn : ∀ c ∈ tm, c.typ ≠ CKA_CLASS) (h : Regular o) :
    Regular (applyTemplate o tm).2 := by
  induction tm generalizing o with
  | nil => exact h
  | cons c tm ih =>
    unfold applyTemplate
    split
    · exact h
    · rename_i a ha
      split
      · exact h
      · rename_i o1 h1
        refine ih (fun c hc => hn c (List.mem_cons_of_mem _ hc)) (regular_setAttr h1 h (inForm_fromCk ha) ?_)
        rw [fromCk_typ ha]
        exact hn c (List.mem_cons_self ..)


theorem regular_sound1 {o : Obj} (h : Sound1 o) (hc : ClsOk o) : Regular o := by
  obtain ⟨a, ha, hu⟩ := hc
  have hlt : o.cls < 2 ^ 64 := by
    have := ulong_eq (h.canon a (find_mem ha)) (find_typ ha) hu
    unfold Attr.toUlong at hu
    repeat' split at hu
    all_goals first | (cases hu; done) | skip
    injection hu with hu
    rw [← hu]
    refine fromLE_lt8 _ ?_
    rw [this]
    exact ulongBytes_length _
  refine ⟨fun b hb => inForm_canon (h.canon b hb), ?_, fun b hb ht => ?_, by rw [ha]; simp, hlt⟩
  · exact (List.Sublist.map _ List.filter_sublist).nodup h.types
  · have : b = a := h.sound.uniform b hb a (find_mem ha) (ht.trans (find_typ ha).symm)
    rw [this]
    exact ulong_eq (h.canon a (find_mem ha)) (find_typ ha) hu

theorem regular_blindCopy {o : Obj} (uid : Bytes) (h : Regular o) : Regular (o.blindCopy uid) := by
  have z := regular_generateUnique (uid := uid) (regular_new o.cls h.lt)
  have hcls : ((Obj.new o.cls).generateUnique uid).cls = o.cls := generateUnique_cls _ _
  have hat : ((Obj.new o.cls).generateUnique uid).attrs = [Attr.ofUlong CKA_CLASS o.cls, Attr.ofString CKA_UNIQUE_ID uid] := by
    simp [Obj.generateUnique, Obj.new, Obj.push, Attr.ofUlong]
  have hm : ∀ a ∈ (o.blindCopy uid).attrs, a ∈ ((Obj.new o.cls).generateUnique uid).attrs ∨ (a ∈ o.attrs ∧ a.typ ≠ CKA_UNIQUE_ID) := by
    intro a ha
    unfold Obj.blindCopy at ha
    simpa only [List.mem_append, List.mem_filter, bne_iff_ne] using ha
  have hc : (o.blindCopy uid).cls = o.cls := by
    unfold Obj.blindCopy
    simp only [hcls]
  refine ⟨fun a ha => ?_, ?_, fun a ha ht => ?_, ?_, by rw [hc]; exact h.lt⟩
  · rcases hm a ha with ha | ha
    · exact z.form a ha
    · exact h.form a ha.1
  · unfold Obj.blindCopy
    simp only [hat, List.filter_append, List.map_append]
    rw [List.nodup_append]
    refine ⟨by simp [Attr.ofUlong, Attr.ofString], ?_, ?_⟩
    · rw [List.filter_filter]
      refine List.Sublist.nodup ?_ h.once
      refine List.Sublist.map _ ?_
      have : (o.attrs.filter fun a => decide (a.typ ≠ CKA_CLASS) && decide (a.typ ≠ CKA_UNIQUE_ID)) =
          (o.attrs.filter fun a => decide (a.typ ≠ CKA_CLASS)).filter fun a => decide (a.typ ≠ CKA_UNIQUE_ID) := by
        rw [List.filter_filter]
        congr 1
        funext a
        rw [Bool.and_comm]
      have e : (fun a : Attr => (a.typ != CKA_CLASS && a.typ != CKA_UNIQUE_ID)) =
          (fun a => a.typ != CKA_UNIQUE_ID && a.typ != CKA_CLASS) := by funext a; rw [Bool.and_comm]
      rw [e, ← List.filter_filter]
      exact List.filter_sublist
    · intro x hx y hy e
      simp [Attr.ofUlong, Attr.ofString] at hx
      subst hx
      simp only [List.mem_map, List.mem_filter, bne_iff_ne] at hy
      obtain ⟨b, ⟨⟨_, hb⟩, _⟩, rfl⟩ := hy
      exact hb e.symm
  · rw [hc]
    rcases hm a ha with ha | ha
    · have := z.cls a ha ht
      rw [hcls] at this; exact this
    · exact h.cls a ha.1 ht
  · unfold Obj.find Obj.blindCopy
    simp only [hat]
    simp [Attr.ofUlong]

/-- C_CopyObject, when the template does not name CKA_CLASS. -/
theorem regular_copy {uid : Bytes} {o o' : Obj} {tm : Template} (hn : ∀ c ∈ tm, c.typ ≠ CKA_CLASS)
    (hc : factoriesCopy uid o tm = .ok o') (h : Regular o) : Regular o' := by
  obtain ⟨F, _, _, _, _, rfl⟩ := factoriesCopy_ok hc
  have z := regular_applyTemplate (tm := tm) hn (regular_blindCopy uid h)
  generalize (applyTemplate (o.blindCopy uid) tm).2 = p at z
  have z1 : Regular (copyFixNeverExtractable o p) := by
    unfold copyFixNeverExtractable
    split
    · exact regular_setBool z (by decide +kernel)
    · exact z
  unfold copyFixAlwaysSensitive
  split
  · exact regular_setBool z1 (by decide +kernel)
  · exact z1

theorem sensitive_bytes : allFactories (fun F => F.sensitive.all fun t => attrKind t == some .bytes) = true := by
  decide +kernel

theorem regular_decryptLoop {C : Crypto} {e : Env} {a : Aci} {uid : Bytes} {ts : List Nat} {i : Nat} {o o' : Obj}
    (ht : ∀ t ∈ ts, attrKind t = some .bytes)
    (hd : decryptLoop C e a uid ts i o = .ok o') (h : Regular o) : Regular o' := by
  induction ts generalizing i o with
  | nil => injection hd with hd; rw [← hd]; exact h
  | cons t ts ih =>
    have hr := fun t' h' => ht t' (List.mem_cons_of_mem _ h')
    unfold decryptLoop at hd
    split at hd
    · exact ih hr hd h
    · split at hd
      · cases hd
      · split at hd
        · cases hd
        · rename_i o1 h1
          have := ht t (List.mem_cons_self ..)
          refine ih hr hd (regular_setAttr h1 h (inForm_bytes _ _ this) ?_)
          show t ≠ CKA_CLASS
          rintro rfl
          exact absurd this (by decide +kernel)

/-- Objects read from storage. -/
theorem regular_fetch {C : Crypto} {e : Env} {s : Store} {h : Handles} {n : Nat} {hints : List Nat} {o : Obj}
    (ok : TblOk s.db.objs) (hf : s.fetch C e h n hints = .ok o) : Regular o := by
  have hor := orderly_fetch ok hf
  unfold Store.fetch at hf
  split at hf
  · cases hf
  split at hf
  · cases hf
  rename_i o1 h1
  obtain ⟨r, _, _, _, hd⟩ := fetchByUid_ok ok h1
  have z1 := regular_sound1 (fetchByUid_sound ok h1) (orderly_decodeRows hd (orderly_new _ (by decide))).cls
  split at hf
  · cases hf
  rename_i F hF
  obtain ⟨k, hm⟩ := objFactory_mem hF
  have hs := allFactories_spec sensitive_bytes hm
  simp only [List.all_eq_true, beq_iff_eq] at hs
  extract_lets dec at hf
  rcases h2 : dec with r | o2
  · rw [h2] at hf; cases hf
  · rw [h2] at hf
    injection hf with hf
    have z2 : Regular o2 := by
      simp only [dec] at h2
      split at h2
      · exact regular_decryptLoop hs h2 z1
      · injection h2 with h2; rw [← h2]; exact z1
    rw [← hf]
    exact ⟨z2.form, z2.once, z2.cls, z2.has, z2.lt⟩

theorem regular_ensureAll {o o' : Obj} {l : List Attr} (hl : ∀ a ∈ l, InForm a) (hc : ensureAll o l = .ok o')
    (h : Regular o) : Regular o' := by
  induction l generalizing o with
  | nil => injection hc with hc; rw [← hc]; exact h
  | cons a l ih =>
    have hr := fun t' h' => hl t' (List.mem_cons_of_mem _ h')
    unfold ensureAll at hc
    split at hc
    · split at hc
      · cases hc
      · exact ih hr hc h
    · exact ih hr hc (regular_push h (hl a (List.mem_cons_self ..)) (by assumption))

theorem regular_importSecret {F : Factory} {k : Nat × Nat} (hF : (k, F) ∈ registry) {uid data : Bytes} {tm : Template}
    {o : Obj} (hc : importSecret F uid data tm = .ok o) : Regular o := by
  unfold importSecret at hc
  split at hc
  · cases hc
  · rename_i o1 h1
    have z := regular_keyInternal hF h1
    unfold setKey at hc
    split at hc
    · cases hc
    · have z2 : Regular (o1.put (Attr.ofBytes CKA_VALUE data)) :=
        regular_put z (inForm_bytes _ _ (show attrKind CKA_VALUE = _ by decide +kernel))
          (show CKA_VALUE ≠ CKA_CLASS by decide)
      unfold setKeyLen at hc
      repeat' split at hc
      all_goals first | (cases hc; done) | exact regular_ensureUlong hc z2 (by decide +kernel)

/-- Unwrapped and encapsulated keys. -/
theorem regular_import {M : Mechs} {O : Oracle} (hM : RegularMechs M O) {F : Factory} {k : Nat × Nat} (hF : (k, F) ∈ registry)
    {uid data : Bytes} {tm : Template} {o : Obj} (hc : importWrapped M uid F data tm = .ok o) : Regular o := by
  unfold importWrapped at hc
  split at hc
  · exact regular_importSecret hF hc
  · exact regular_importSecret hF hc
  · unfold importAes at hc
    simp only at hc
    repeat' split at hc
    all_goals first | (cases hc; done) | exact regular_importSecret hF hc
  all_goals
    repeat' split at hc
    all_goals first
      | (cases hc; done)
      | (rename_i h1 _ _ h2
         exact regular_ensureAll (fun a ha => (hM.importAttrs _ _ _ _ h2 a ha)) hc (regular_keyInternal hF h1))

theorem oneUid_same : ∀ l : List Attr, ((l.filter fun a => a.typ != CKA_CLASS).map Attr.typ).Nodup → oneUid l = l := by
  intro l h
  induction l with
  | nil => rfl
  | cons a l ih =>
    unfold oneUid
    split
    · rename_i e
      rw [List.filter_cons, if_pos (by simp [e]), List.map_cons, List.nodup_cons] at h
      congr 1
      rw [List.filter_eq_self]
      intro b hb
      have : b.typ ≠ CKA_UNIQUE_ID := by
        intro e'
        apply h.1
        rw [List.mem_map]
        exact ⟨b, List.mem_filter.2 ⟨hb, by simp [e']⟩, e'.trans e.symm⟩
      simp [this]
    · rw [ih]
      rw [List.filter_cons] at h
      split at h
      · exact (List.nodup_cons.1 h).2
      · exact h

theorem regular_fresh {o : Obj} (h : Regular o) : Regular (fresh o) := by
  have e : (fresh o).attrs = o.attrs := oneUid_same _ h.once
  refine ⟨by rw [e]; exact h.form, by rw [e]; exact h.once, by rw [e]; exact h.cls, ?_, h.lt⟩
  unfold Obj.find
  rw [e]
  exact h.has

end Kry
