import Verif.Spec.Object
import Verif.Proofs.Create
import Verif.Props.Examples

/-!
# C31: C_GetAttributeValue obeys the buffer protocol
-/

namespace Kry
open Spec

/-- The attribute is readable on `o`: known for the object type, not a secret of a closed key, and
present. -/
def Readable (F : Factory) (o : Obj) (t : Nat) : Prop :=
  ∃ f ∈ F.attrs, f.typ = t ∧ (∀ g ∈ F.attrs, g.typ = t → g = f) ∧
    ¬ ((o.isSensitive = true ∨ o.isExtractable = false) ∧ f.is oaSensitive = true) ∧ value o t ≠ none

theorem getLoop_outs (fa : List FAttr) (s : Bool) (o : Obj) (t : List OutAttr) : ∀ r,
    (getLoop fa s o t r).1 = t.map fun a => (getOne fa s o a).1 := by
  induction t with
  | nil => intro r; rfl
  | cons a rest ih => intro r; simp only [getLoop, List.map_cons, ih]

theorem getLoop_err (fa : List FAttr) (s : Bool) (o : Obj) (t : List OutAttr) : ∀ r,
    (getLoop fa s o t r).2 = (r :: t.map fun a => (getOne fa s o a).2).findSome? id := by
  induction t with
  | nil => intro r; cases r <;> rfl
  | cons a rest ih =>
    intro r
    simp only [getLoop, ih, List.map_cons]
    cases r <;> simp [List.findSome?]

/-- **C31.**  Every entry is answered on its own: the `i`-th entry after the call depends only on the
object and on the `i`-th entry before it (never on the other entries), and no entry is added or lost.
The return code is CKR_OK iff no entry reports an error; otherwise it is the error of the first entry
that reports one. -/
theorem C31_entries_independent (o : Obj) (F : Factory) (hF : objFactory o = .ok F) (t : List OutAttr) :
    ∃ one : OutAttr → OutAttr × Option Rv,
      (∀ a, getObjectAttributes o [a] =
        ((match (one a).2 with | none => .ok () | some e => .error e), [(one a).1])) ∧
      (getObjectAttributes o t).2 = t.map (fun a => (one a).1) ∧
      ((getObjectAttributes o t).1 = .ok () ↔ ∀ a ∈ t, (one a).2 = none) ∧
      (∀ e, (getObjectAttributes o t).1 = .error e ↔
        ∃ pre a post, t = pre ++ a :: post ∧ (∀ b ∈ pre, (one b).2 = none) ∧ (one a).2 = some e) := by
  refine ⟨getOne F.attrs (o.isSensitive || !o.isExtractable) o, ?_, ?_, ?_, ?_⟩
  · intro a
    simp only [getObjectAttributes, hF, getLoop]
    cases (getOne F.attrs (o.isSensitive || !o.isExtractable) o a).2 <;> rfl
  · simp only [getObjectAttributes, hF]
    have := getLoop_outs F.attrs (o.isSensitive || !o.isExtractable) o t none
    cases h : getLoop F.attrs (o.isSensitive || !o.isExtractable) o t none with
    | mk x r => rw [h] at this; cases r <;> exact this
  · have := getLoop_err F.attrs (o.isSensitive || !o.isExtractable) o t none
    simp only [getObjectAttributes, hF]
    cases h : getLoop F.attrs (o.isSensitive || !o.isExtractable) o t none with
    | mk x r =>
      rw [h] at this
      simp only at this
      simp only [List.findSome?_cons, id] at this
      cases r with
      | none => simp only [true_iff]; simpa [List.findSome?_eq_none_iff] using this.symm
      | some e =>
        simp only [reduceCtorEq, false_iff]
        intro hall
        have h2 : (t.map fun a => (getOne F.attrs (o.isSensitive || !o.isExtractable) o a).2).findSome? id = none := by
          rw [List.findSome?_eq_none_iff]; simpa using hall
        rw [h2] at this; cases this
  · intro e
    have := getLoop_err F.attrs (o.isSensitive || !o.isExtractable) o t none
    simp only [getObjectAttributes, hF]
    cases h : getLoop F.attrs (o.isSensitive || !o.isExtractable) o t none with
    | mk x r =>
      rw [h] at this
      simp only [List.findSome?_cons, id] at this
      generalize getOne F.attrs (o.isSensitive || !o.isExtractable) o = one at this ⊢
      have key : (∃ pre a post, t = pre ++ a :: post ∧ (∀ b ∈ pre, (one b).2 = none) ∧ (one a).2 = some e) ↔
          (t.map fun a => (one a).2).findSome? id = some e := by
        clear this h
        induction t with
        | nil => simp
        | cons b t ih =>
          simp only [List.map_cons, List.findSome?_cons, id]
          cases hb : (one b).2 with
          | none =>
            simp only
            rw [← ih]
            constructor
            · rintro ⟨pre, a, post, e1, e2, e3⟩
              cases pre with
              | nil => simp at e1; rw [← e1.1, hb] at e3; cases e3
              | cons c pre =>
                simp at e1
                exact ⟨pre, a, post, e1.2, fun x hx => e2 x (List.mem_cons_of_mem _ hx), e3⟩
            · rintro ⟨pre, a, post, e1, e2, e3⟩
              refine ⟨b :: pre, a, post, by rw [e1]; rfl, ?_, e3⟩
              intro x hx
              rcases List.mem_cons.mp hx with h | h
              · rw [h]; exact hb
              · exact e2 x h
          | some e' =>
            simp only [Option.some.injEq]
            constructor
            · rintro ⟨pre, a, post, e1, e2, e3⟩
              cases pre with
              | nil => simp at e1; rw [← e1.1, hb] at e3; injection e3
              | cons c pre => simp at e1; have := e2 c (List.mem_cons_self ..); rw [← e1.1, hb] at this; cases this
            · intro h; exact ⟨[], b, t, rfl, by simp, by rw [hb, h]⟩
      rw [key, ← this]
      cases r <;> simp


/-- **C31, one entry.**  For an entry whose attribute is readable with value `v`:
* a NULL buffer gets exactly the length of `v`, and no error;
* a buffer of at least that length gets exactly the bytes of `v` (bytes beyond are untouched) and the
  length, and no error;
* a shorter buffer is not written, the length becomes CK_UNAVAILABLE_INFORMATION and the entry reports
  CKR_BUFFER_TOO_SMALL.
An entry whose attribute is not readable is not written, its length becomes CK_UNAVAILABLE_INFORMATION
and it reports an error. -/
theorem C31_one_entry (o : Obj) (F : Factory) (hF : objFactory o = .ok F) (a : OutAttr) :
    let r := getObjectAttributes o [a]
    (∀ v, Readable F o a.typ → value o a.typ = some v →
      (a.isNull = true → r = (.ok (), [{ a with len := v.length }])) ∧
      (a.isNull = false → a.len ≠ CK_UNAVAILABLE_INFORMATION → v.length ≤ a.len →
        r = (.ok (), [{ a with len := v.length, buf := v ++ a.buf.drop v.length }])) ∧
      (a.isNull = false → a.len < v.length → v.length ≤ CK_UNAVAILABLE_INFORMATION →
        r = (.error .bufferTooSmall, [{ a with len := CK_UNAVAILABLE_INFORMATION }]))) ∧
    (¬ Readable F o a.typ → ∃ e, r = (.error e, [{ a with len := CK_UNAVAILABLE_INFORMATION }]) ∧
      (e = .attrTypeInvalid ∨ e = .attrSensitive)) := by
  obtain ⟨k, hmem⟩ := objFactory_mem hF
  have hnd : (F.attrs.map FAttr.typ).Nodup := by
    have := allFactories_spec tables_nodup hmem; simpa using this
  have hr : ∀ x e, getOne F.attrs (o.isSensitive || !o.isExtractable) o a = (x, e) →
      getObjectAttributes o [a] = ((match e with | none => .ok () | some e => .error e), [x]) := by
    intro x e h
    simp only [getObjectAttributes, hF, getLoop, h]
    cases e <;> rfl
  refine ⟨?_, ?_⟩
  · rintro v ⟨f, hf, hft, _, hs, _⟩ hv
    have hfind := findF_of_mem hnd hf
    rw [hft] at hfind
    rw [value_eq] at hv
    have hsen : ((o.isSensitive || !o.isExtractable) && f.is oaSensitive) = false := by
      rw [Bool.and_eq_false_iff]
      by_cases h1 : f.is oaSensitive = true
      · left
        have : ¬ (o.isSensitive = true ∨ o.isExtractable = false) := fun h => hs ⟨h, h1⟩
        cases h2 : o.isSensitive <;> cases h3 : o.isExtractable <;> simp_all
      · right; simpa using h1
    cases hfo : o.find a.typ with
    | none => rw [hfo] at hv; simp at hv
    | some oa =>
      rw [hfo] at hv; simp at hv
      subst hv
      refine ⟨?_, ?_, ?_⟩
      · intro hn
        exact hr _ none (by simp [getOne, hfind, hsen, hfo, hn])
      · intro hn hu hl
        exact hr _ none (by simp [getOne, hfind, hsen, hfo, hn, hu, Nat.not_lt.mpr hl])
      · intro hn hl hmax
        exact hr _ (some .bufferTooSmall) (by
          have hu : a.len ≠ CK_UNAVAILABLE_INFORMATION := by omega
          simp [getOne, hfind, hsen, hfo, hn, hu, hl])
  · intro hnr
    unfold Readable at hnr
    cases hfind : findF F.attrs a.typ with
    | none => exact ⟨_, hr _ (some .attrTypeInvalid) (by simp [getOne, hfind]), Or.inl rfl⟩
    | some f =>
      by_cases hsen : ((o.isSensitive || !o.isExtractable) && f.is oaSensitive) = true
      · exact ⟨_, hr _ (some .attrSensitive) (by simp only [getOne, hfind, hsen, if_true]), Or.inr rfl⟩
      · cases hfo : o.find a.typ with
        | none => exact ⟨_, hr _ (some .attrTypeInvalid) (by simp [getOne, hfind, hfo]; intro h; simp [h] at hsen; simp_all), Or.inl rfl⟩
        | some oa =>
          exfalso
          apply hnr
          refine ⟨f, findF_mem hfind, findF_typ hfind, ?_, ?_, by rw [value_eq, hfo]; simp⟩
          · intro g hg hgt
            have := findF_of_mem hnd hg
            rw [hgt, hfind] at this
            injection this with this; exact this.symm
          · rintro ⟨h1, h2⟩
            apply hsen
            rcases h1 with h1 | h1 <;> simp [h1, h2]

/-! ## Concrete case: a long enough, a short and a NULL buffer, and a secret, in one call. -/

example : objFactory exAes = .ok aesF ∧
    getObjectAttributes exAes [⟨CKA_KEY_TYPE, false, 9, [1, 1, 1, 1, 1, 1, 1, 1, 1]⟩, ⟨CKA_VALUE, true, 0, []⟩,
        ⟨CKA_KEY_TYPE, false, 7, [2, 2, 2, 2, 2, 2, 2]⟩, ⟨CKA_CLASS, true, 0, []⟩] =
      (.error .attrSensitive, [⟨CKA_KEY_TYPE, false, 8, ulongBytes CKK_AES ++ [1]⟩,
        ⟨CKA_VALUE, true, CK_UNAVAILABLE_INFORMATION, []⟩,
        ⟨CKA_KEY_TYPE, false, CK_UNAVAILABLE_INFORMATION, [2, 2, 2, 2, 2, 2, 2]⟩, ⟨CKA_CLASS, true, 8, []⟩]) := by
  decide +kernel

example : Readable aesF exAes CKA_KEY_TYPE ∧ ¬ Readable aesF exAes CKA_VALUE := by
  constructor
  · unfold Readable
    refine ⟨(findF aesF.attrs CKA_KEY_TYPE).getD default, by decide +kernel, by decide +kernel, by decide +kernel,
      by decide +kernel, by decide +kernel⟩
  · rintro ⟨f, hf, ht, hu, hs, _⟩
    have : f = (findF aesF.attrs CKA_VALUE).getD default := (hu _ (by decide +kernel) (by decide +kernel)).symm
    subst this
    exact hs ⟨by decide +kernel, by decide +kernel⟩

end Kry
