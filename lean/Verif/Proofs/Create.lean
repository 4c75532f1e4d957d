import Verif.Proofs.Object
import Verif.Spec.Create

/-! # Lemmas about object creation -/

namespace Kry
open Spec

/-- Every registered table lists each attribute type at most once. -/
theorem tables_nodup : allFactories (fun F => decide (F.attrs.map FAttr.typ).Nodup) = true := by
  decide +kernel

theorem findF_of_mem {fa : List FAttr} {f : FAttr} (hn : (fa.map FAttr.typ).Nodup) (hf : f ∈ fa) :
    findF fa f.typ = some f := by
  induction fa with
  | nil => cases hf
  | cons g fa ih =>
    unfold findF
    rw [List.find?_cons]
    simp only [List.map_cons, List.nodup_cons] at hn
    rcases List.mem_cons.mp hf with e | e
    · subst e; simp
    · have : (g.typ == f.typ) = false := by
        simp; intro he; exact hn.1 (by rw [he]; exact List.mem_map.mpr ⟨f, e, rfl⟩)
      rw [this]; exact ih hn.2 e

theorem findF_none {fa : List FAttr} {t : Nat} (h : findF fa t = none) : ∀ f ∈ fa, f.typ ≠ t := by
  intro f hf e
  have := List.find?_eq_none.mp h f hf
  simp [e] at this

/-- Is `t` marked with `flag`, as a lookup. -/
theorem marked_iff {F : Factory} (hn : (F.attrs.map FAttr.typ).Nodup) {t flag : Nat} {f : FAttr}
    (h : findF F.attrs t = some f) : Marked F t flag ↔ f.is flag = true := by
  constructor
  · rintro ⟨g, hg, hgt, hgf⟩
    have := findF_of_mem hn hg
    rw [hgt, h] at this
    injection this with this
    rw [this]; exact hgf
  · intro hf; exact ⟨f, findF_mem h, findF_typ h, hf⟩

theorem find_none_mem {o : Obj} {t : Nat} (h : o.find t = none) : ∀ a ∈ o.attrs, a.typ ≠ t := by
  intro a ha e
  have := List.find?_eq_none.mp h a ha
  simp [e] at this

/-- What a template contributes to the object's attribute list. -/
def contrib (fa : List FAttr) (tm : Template) : List Attr :=
  tm.filterMap fun c => match findF fa c.typ with
    | none => none
    | some f => if f.is oaIgnored then none else match Attr.fromCk c with
      | .ok a => some a
      | .error _ => none

theorem toUlong_pval {c : CkAttr} {n : Nat} (hn : n < 2 ^ 64) :
    c.toUlong = .ok n ↔ c.pval = .data (toLE 8 n) := by
  unfold CkAttr.toUlong
  constructor
  · intro h
    split at h
    · cases h
    · rename_i hl
      cases hp : c.pval with
      | null k => rw [hp] at h; cases h
      | data bs =>
        rw [hp] at h hl
        simp [PVal.len, ulongSize] at h hl
        rw [← h]
        have := ulongBytes_fromLE bs hl
        unfold ulongBytes at this; rw [this]
  · intro h
    rw [h]
    have := fromLE_ulongBytes n hn
    unfold ulongBytes at this
    simp [PVal.len, ulongSize, this]

/-- The duplicate test of the template loop. -/
def dupCheck (o : Obj) (c : CkAttr) : Res Unit :=
  match o.find c.typ with
  | none => .ok ()
  | some oa =>
    if oa.typ ≠ CKA_CLASS then .error .templateInconsistent
    else match c.toUlong with
      | .error e => .error e
      | .ok n => match oa.toUlong with
        | .error e => .error e
        | .ok m => if n ≠ m then .error .templateInconsistent else .ok ()

theorem dupCheck_ok {o : Obj} {cls : Nat} (hc : o.find CKA_CLASS = some (Attr.ofUlong CKA_CLASS cls))
    (hcls : cls < 2 ^ 64) (c : CkAttr) :
    dupCheck o c = .ok () ↔ ((c.typ = CKA_CLASS → c.pval = .data (toLE 8 cls)) ∧
      (c.typ ≠ CKA_CLASS → o.find c.typ = none)) := by
  unfold dupCheck
  by_cases ht : c.typ = CKA_CLASS
  · rw [ht, hc]
    simp only [show (Attr.ofUlong CKA_CLASS cls).typ = CKA_CLASS from rfl, ne_eq, not_true, if_false,
      toUlong_ofUlong _ _ hcls, forall_const, false_implies, and_true]
    rw [← toUlong_pval hcls]
    cases c.toUlong with
    | error e => simp
    | ok n =>
      by_cases hn : n = cls <;> simp [hn]
  · cases hf : o.find c.typ with
    | none => simp [ht]
    | some oa =>
      have := find_typ hf
      simp [ht, this]

theorem createLoop_cons (fa : List FAttr) (u : Nat) (o : Obj) (c : CkAttr) (rest : Template) :
    createLoop fa u o (c :: rest) = match findF fa c.typ with
      | none => .error .attrValueInvalid
      | some f => if f.is u then .error .attrTypeInvalid
        else match dupCheck o c with
          | .error e => .error e
          | .ok () => if f.is oaIgnored then createLoop fa u o rest
            else match Attr.fromCk c with
              | .error e => .error e
              | .ok a => createLoop fa u (o.push a) rest := by
  rfl

/-- Exact characterisation of the template loop. -/
theorem createLoop_iff {F : Factory} (hn : (F.attrs.map FAttr.typ).Nodup) (u : Nat) (hcls : F.cls < 2 ^ 64)
    (tm : Template) : ∀ (o o' : Obj), o.find CKA_CLASS = some (Attr.ofUlong CKA_CLASS F.cls) →
    (∀ t, Marked F t oaIgnored → o.find t = none) →
    (createLoop F.attrs u o tm = .ok o' ↔
      ((∀ c ∈ tm, ∃ f ∈ F.attrs, f.typ = c.typ) ∧ (∀ c ∈ tm, ¬ Marked F c.typ u) ∧
       (tm.Pairwise fun c d => c.typ = d.typ → c.typ = CKA_CLASS ∨ Marked F c.typ oaIgnored) ∧
       (∀ c ∈ tm, c.typ = CKA_CLASS → c.pval = .data (toLE 8 F.cls)) ∧
       (∀ c ∈ tm, Marked F c.typ oaIgnored ∨ ∃ a, Attr.fromCk c = .ok a) ∧
       (∀ c ∈ tm, c.typ ≠ CKA_CLASS → o.find c.typ = none)) ∧
      o' = { o with attrs := o.attrs ++ contrib F.attrs tm }) := by
  induction tm with
  | nil =>
    intro o o' _ _
    simp [createLoop, contrib]
    constructor <;> (intro h; exact h.symm)
  | cons c rest ih =>
    intro o o' hc hig
    rw [createLoop_cons]
    cases hf : findF F.attrs c.typ with
    | none =>
      simp only [reduceCtorEq, false_iff]
      rintro ⟨⟨h1, _⟩, _⟩
      obtain ⟨f, hfm, hft⟩ := h1 c (List.mem_cons_self ..)
      exact findF_none hf f hfm hft
    | some f =>
      have hmk := fun flag => marked_iff hn (flag := flag) hf
      simp only
      by_cases hu : f.is u = true
      · simp only [hu, if_true, reduceCtorEq, false_iff]
        rintro ⟨⟨_, h2, _⟩, _⟩
        exact h2 c (List.mem_cons_self ..) ((hmk u).mpr hu)
      · simp only [hu, Bool.false_eq_true, if_false]
        have hnu : ¬ Marked F c.typ u := fun h => hu ((hmk u).mp h)
        have hd := dupCheck_ok hc hcls c
        cases hdc : dupCheck o c with
        | error e =>
          simp only [reduceCtorEq, false_iff]
          rintro ⟨⟨_, _, _, h4, _, h6⟩, _⟩
          have := hd.mpr ⟨h4 c (List.mem_cons_self ..), h6 c (List.mem_cons_self ..)⟩
          rw [hdc] at this; cases this
        | ok _ =>
          obtain ⟨hd1, hd2⟩ := hd.mp hdc
          simp only
          by_cases hi : f.is oaIgnored = true
          · simp only [hi, if_true]
            have hmi := (hmk oaIgnored).mpr hi
            have hcon : contrib F.attrs (c :: rest) = contrib F.attrs rest := by
              simp [contrib, hf, hi]
            rw [ih o o' hc hig, hcon]
            simp only [List.mem_cons, forall_eq_or_imp, List.pairwise_cons]
            constructor
            · rintro ⟨⟨a1, a2, a3, a4, a5, a6⟩, a7⟩
              exact ⟨⟨⟨⟨f, findF_mem hf, findF_typ hf⟩, a1⟩, ⟨hnu, a2⟩, ⟨fun _ _ _ => Or.inr hmi, a3⟩,
                ⟨hd1, a4⟩, ⟨Or.inl hmi, a5⟩, ⟨hd2, a6⟩⟩, a7⟩
            · rintro ⟨⟨⟨_, a1⟩, ⟨_, a2⟩, ⟨_, a3⟩, ⟨_, a4⟩, ⟨_, a5⟩, ⟨_, a6⟩⟩, a7⟩
              exact ⟨⟨a1, a2, a3, a4, a5, a6⟩, a7⟩
          · simp only [hi, Bool.false_eq_true, if_false]
            have hni : ¬ Marked F c.typ oaIgnored := fun h => hi ((hmk oaIgnored).mp h)
            cases ha : Attr.fromCk c with
            | error e =>
              simp only [reduceCtorEq, false_iff]
              rintro ⟨⟨_, _, _, _, h5, _⟩, _⟩
              rcases h5 c (List.mem_cons_self ..) with h | ⟨a, h⟩
              · exact hni h
              · rw [ha] at h; cases h
            | ok a =>
              simp only
              have hat : a.typ = c.typ := fromCk_typ ha
              have hc' : (o.push a).find CKA_CLASS = some (Attr.ofUlong CKA_CLASS F.cls) := by
                rw [find_push, hc]; rfl
              have hig' : ∀ t, Marked F t oaIgnored → (o.push a).find t = none := by
                intro t ht
                rw [find_push, hig t ht]
                have : a.typ ≠ t := fun e => hni (by rw [← hat, e]; exact ht)
                simp [this]
              have hcon : contrib F.attrs (c :: rest) = a :: contrib F.attrs rest := by
                simp [contrib, hf, hi, ha]
              have hobj : ∀ o' : Obj, o' = { o.push a with attrs := (o.push a).attrs ++ contrib F.attrs rest } ↔
                  o' = { o with attrs := o.attrs ++ contrib F.attrs (c :: rest) } := by
                intro o'; rw [hcon]; simp [Obj.push]
              have hfp : ∀ t, (o.push a).find t = none ↔ o.find t = none ∧ c.typ ≠ t := by
                intro t
                rw [find_push]
                by_cases h : a.typ = t
                · simp [h, ← hat]
                · simp [h, ← hat]
              rw [ih (o.push a) o' hc' hig', hobj]
              simp only [List.mem_cons, forall_eq_or_imp, List.pairwise_cons, hfp]
              constructor
              · rintro ⟨⟨a1, a2, a3, a4, a5, a6⟩, a7⟩
                refine ⟨⟨⟨⟨f, findF_mem hf, findF_typ hf⟩, a1⟩, ⟨hnu, a2⟩, ⟨?_, a3⟩,
                  ⟨hd1, a4⟩, ⟨Or.inr ⟨a, ha⟩, a5⟩, ⟨hd2, fun d hd h => (a6 d hd h).1⟩⟩, a7⟩
                intro d hdm he
                by_cases hcl : c.typ = CKA_CLASS
                · exact Or.inl hcl
                · exact absurd he (a6 d hdm (by rw [← he]; exact hcl)).2
              · rintro ⟨⟨⟨_, a1⟩, ⟨_, a2⟩, ⟨b3, a3⟩, ⟨_, a4⟩, ⟨_, a5⟩, ⟨_, a6⟩⟩, a7⟩
                refine ⟨⟨a1, a2, a3, a4, a5, fun d hd h => ⟨a6 d hd h, ?_⟩⟩, a7⟩
                intro he
                rcases b3 d hd he with h' | h'
                · exact h (by rw [← he]; exact h')
                · exact hni h'

/-- Exact characterisation of the defaults loop. -/
theorem defaultsLoop_iff (r : Nat) : ∀ (fa : List FAttr) (o : Obj), (fa.map FAttr.typ).Nodup →
    ((∃ o', defaultsLoop r o fa = .ok o') ↔
      ∀ f ∈ fa, (f.is r = true ∨ f.is oaAlwaysRequired = true) → f.hasDefault = true ∨ o.find f.typ ≠ none) ∧
    (∀ o', defaultsLoop r o fa = .ok o' → (o'.cls = o.cls ∧ o'.handle = o.handle ∧ o'.session = o.session) ∧
      ∀ t, o'.find t = (o.find t).or
        (match findF fa t with
          | none => none
          | some f => if f.hasDefault then some f.attr else none)) := by
  intro fa
  induction fa with
  | nil =>
    intro o _
    refine ⟨by simp [defaultsLoop], ?_⟩
    intro o' h
    simp [defaultsLoop] at h
    subst h
    exact ⟨⟨rfl, rfl, rfl⟩, fun t => by simp [findF]⟩
  | cons f fa ih =>
    intro o hn
    simp only [List.map_cons, List.nodup_cons] at hn
    have hfa : ∀ g ∈ fa, g.typ ≠ f.typ := fun g hg e => hn.1 (by rw [← e]; exact List.mem_map.mpr ⟨g, hg, rfl⟩)
    have hfn : findF fa f.typ = none := by
      unfold findF; rw [List.find?_eq_none]; intro g hg; simpa using hfa g hg
    have hcons : ∀ t, findF (f :: fa) t = if f.typ = t then some f else findF fa t := by
      intro t; unfold findF; rw [List.find?_cons]
      by_cases h : f.typ = t
      · simp [h]
      · have : (f.typ == t) = false := by simp [h]
        simp [h, this]
    unfold defaultsLoop
    cases hf : o.find f.typ with
    | some oa =>
      obtain ⟨h1, h2⟩ := ih o hn.2
      refine ⟨?_, ?_⟩
      · simp only
        rw [h1]
        simp only [List.mem_cons, forall_eq_or_imp]
        constructor
        · intro h; exact ⟨fun _ => Or.inr (by simp [hf]), h⟩
        · intro h; exact h.2
      · intro o' ho'
        obtain ⟨e1, e2⟩ := h2 o' ho'
        refine ⟨e1, fun t => ?_⟩
        rw [e2 t, hcons t]
        by_cases ht : f.typ = t
        · subst ht; rw [if_pos rfl, hf]; simp
        · rw [if_neg ht]
    | none =>
      by_cases hd : f.hasDefault = true
      · have htyp : f.attr.typ = f.typ := rfl
        obtain ⟨h1, h2⟩ := ih (o.push f.attr) hn.2
        refine ⟨?_, ?_⟩
        · simp only [hd, if_true]
          rw [h1]
          simp only [List.mem_cons, forall_eq_or_imp]
          constructor
          · intro h
            refine ⟨fun _ => Or.inl hd, fun g hg hr => ?_⟩
            rcases h g hg hr with h' | h'
            · exact Or.inl h'
            · right; intro hno; apply h'
              rw [find_push, hno, htyp, if_neg (fun e => hfa g hg e.symm)]; rfl
          · intro h g hg hr
            rcases h.2 g hg hr with h' | h'
            · exact Or.inl h'
            · right; rw [find_push]
              cases hg' : o.find g.typ with
              | none => exact absurd hg' h'
              | some x => simp
        · intro o' ho'
          simp only [hd, if_true] at ho'
          obtain ⟨e1, e2⟩ := h2 o' ho'
          refine ⟨e1, fun t => ?_⟩
          rw [e2 t, hcons t, find_push, htyp]
          by_cases ht : f.typ = t
          · subst ht; simp [hf, hd]
          · rw [if_neg ht, if_neg ht]; simp
      · simp only [hd, Bool.false_eq_true, if_false]
        by_cases hr : (f.is r || f.is oaAlwaysRequired) = true
        · refine ⟨?_, ?_⟩
          · simp only [hr, if_true, reduceCtorEq, exists_const, false_iff]
            intro h
            rcases h f (List.mem_cons_self ..) (by simpa using hr) with h' | h'
            · exact hd h'
            · exact h' hf
          · intro o' ho'; simp [hr] at ho'
        · simp only [hr, Bool.false_eq_true, if_false]
          obtain ⟨h1, h2⟩ := ih o hn.2
          refine ⟨?_, ?_⟩
          · rw [h1]
            simp only [List.mem_cons, forall_eq_or_imp]
            constructor
            · intro h; exact ⟨fun h' => absurd (by simpa using h') hr, h⟩
            · intro h; exact h.2
          · intro o' ho'
            obtain ⟨e1, e2⟩ := h2 o' ho'
            refine ⟨e1, fun t => ?_⟩
            rw [e2 t, hcons t]
            by_cases ht : f.typ = t
            · subst ht; simp [hd, hfn]
            · rw [if_neg ht]

end Kry
