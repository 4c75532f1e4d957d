import Verif.Proofs.Create
import Verif.Props.Examples

/-!
# C15: object templates are checked completely
-/

namespace Kry
open Spec

theorem classes_small : allFactories (fun F => decide (F.cls < 2 ^ 64)) = true := by decide +kernel

/-- CKA_CLASS is in every table, is not ignored and has no default. -/
theorem class_entry : allFactories (fun F => F.attrs.all fun f =>
    f.typ != CKA_CLASS || (!f.is oaIgnored && !f.hasDefault)) = true := by decide +kernel

theorem class_not_ignored {F : Factory} {k : Nat × Nat} (hF : (k, F) ∈ registry) :
    ¬ Marked F CKA_CLASS oaIgnored := by
  rintro ⟨f, hf, ht, hi⟩
  have := allFactories_spec class_entry hF
  rw [List.all_eq_true] at this
  have := this f hf
  simp [ht, hi] at this

theorem new_find (cls t : Nat) :
    (Obj.new cls).find t = if t = CKA_CLASS then some (Attr.ofUlong CKA_CLASS cls) else none := by
  by_cases h : t = CKA_CLASS
  · simp [Obj.new, Obj.find, Attr.ofUlong, h]
  · have : ¬ (CKA_CLASS = t) := fun e => h e.symm
    simp [Obj.new, Obj.find, Attr.ofUlong, h, this]

theorem contrib_find_none {F : Factory} (hn : (F.attrs.map FAttr.typ).Nodup) {tm : Template} {t : Nat}
    (h : (contrib F.attrs tm).find? (fun a => a.typ == t) = none) :
    ∀ c ∈ tm, c.typ = t → (∃ f ∈ F.attrs, f.typ = c.typ) →
      Marked F t oaIgnored ∨ ¬ ∃ a, Attr.fromCk c = .ok a := by
  intro c hc ht hk
  obtain ⟨f, hf, hft⟩ := hk
  have hff := findF_of_mem hn hf
  rw [hft] at hff
  by_cases hi : f.is oaIgnored = true
  · left; exact ⟨f, hf, by rw [hft, ht], hi⟩
  · right
    rintro ⟨a, ha⟩
    have hmem : a ∈ contrib F.attrs tm := by
      unfold contrib
      rw [List.mem_filterMap]
      exact ⟨c, hc, by simp [hff, hi, ha]⟩
    have := List.find?_eq_none.mp h a hmem
    simp [fromCk_typ ha, ht] at this

theorem contrib_find_some {F : Factory} {tm : Template} {t : Nat} {a : Attr} (hn : (F.attrs.map FAttr.typ).Nodup)
    (h : (contrib F.attrs tm).find? (fun a => a.typ == t) = some a) :
    ∃ c ∈ tm, c.typ = t ∧ Attr.fromCk c = .ok a ∧ ¬ Marked F t oaIgnored := by
  have hm := List.mem_of_find?_eq_some h
  have ht := List.find?_some h
  simp at ht
  unfold contrib at hm
  rw [List.mem_filterMap] at hm
  obtain ⟨c, hc, hcc⟩ := hm
  split at hcc
  · cases hcc
  · rename_i f hf
    split at hcc
    · cases hcc
    · rename_i hi
      split at hcc
      · rename_i a' ha
        injection hcc with hcc
        subst hcc
        have hct : c.typ = t := by rw [← fromCk_typ ha]; exact ht
        exact ⟨c, hc, hct, ha, fun hmk => hi ((marked_iff hn (by rw [← hct]; exact hf)).mp hmk)⟩
      · cases hcc

/-- **C15, the checks are exact.**  For every object type of the token, every template of any length
and content and every choice of reserved and required attributes, the generic creation step succeeds if
and only if the template is acceptable: every attribute known for the class, none reserved, none given
twice, the class consistent, every value well formed, every required attribute present. -/
theorem C15_accepts_iff (F : Factory) (k : Nat × Nat) (hF : (k, F) ∈ registry) (tm : Template)
    (reserved required : Nat) :
    (∃ o, internalObjectCreate F tm reserved required = .ok o) ↔ Acceptable F reserved required tm := by
  have hn : (F.attrs.map FAttr.typ).Nodup := by
    have := allFactories_spec tables_nodup hF; simpa using this
  have hcls : F.cls < 2 ^ 64 := by
    have := allFactories_spec classes_small hF; simpa using this
  have hcl := createLoop_iff hn reserved hcls tm (Obj.new F.cls)
  have h0 : (Obj.new F.cls).find CKA_CLASS = some (Attr.ofUlong CKA_CLASS F.cls) := by
    rw [new_find, if_pos rfl]
  have hig : ∀ t, Marked F t oaIgnored → (Obj.new F.cls).find t = none := by
    intro t ht
    rw [new_find, if_neg]
    intro e; subst e; exact class_not_ignored hF ht
  have hcl := fun o' => hcl o' h0 hig
  have hsup : ∀ (o : Obj), createLoop F.attrs reserved (Obj.new F.cls) tm = .ok o → ∀ t,
      (o.find t ≠ none ↔ Supplies F tm t) := by
    intro o ho t
    obtain ⟨⟨a1, a2, a3, a4, a5, a6⟩, rfl⟩ := (hcl o).mp ho
    have hfind : ({ Obj.new F.cls with attrs := (Obj.new F.cls).attrs ++ contrib F.attrs tm } : Obj).find t
        = ((Obj.new F.cls).find t).or ((contrib F.attrs tm).find? fun a => a.typ == t) := by
      simp [Obj.find, List.find?_append]
    rw [hfind, new_find]
    by_cases ht : t = CKA_CLASS
    · simp [ht, Supplies]
    · simp only [Supplies, ht, false_or, if_false, Option.none_or]
      constructor
      · intro h
        cases hc : (contrib F.attrs tm).find? (fun a => a.typ == t) with
        | none => exact absurd hc h
        | some a =>
          obtain ⟨c, hc1, hc2, _, hc4⟩ := contrib_find_some hn hc
          exact ⟨hc4, c, hc1, hc2⟩
      · rintro ⟨h1, c, hc1, hc2⟩ hc
        rcases contrib_find_none hn hc c hc1 hc2 (a1 c hc1) with h | h
        · exact h1 h
        · rcases a5 c hc1 with h' | h'
          · rw [hc2] at h'; exact h1 h'
          · exact h h'
  unfold internalObjectCreate
  constructor
  · rintro ⟨o', ho'⟩
    cases hl : createLoop F.attrs reserved (Obj.new F.cls) tm with
    | error e => rw [hl] at ho'; cases ho'
    | ok o =>
      rw [hl] at ho'
      obtain ⟨⟨a1, a2, a3, a4, a5, a6⟩, _⟩ := (hcl o).mp hl
      have hd := (defaultsLoop_iff required F.attrs o hn).1.mp ⟨o', ho'⟩
      refine ⟨a1, a2, a3, a4, a5, ?_⟩
      intro f hf hr
      rcases hd f hf hr with h | h
      · exact Or.inl h
      · exact Or.inr ((hsup o hl f.typ).mp h)
  · intro hA
    have hok : createLoop F.attrs reserved (Obj.new F.cls) tm
        = .ok { Obj.new F.cls with attrs := (Obj.new F.cls).attrs ++ contrib F.attrs tm } :=
      (hcl _).mpr ⟨⟨hA.known, hA.allowed, hA.once, hA.cls, hA.values, fun c _ h => by
        rw [new_find, if_neg h]⟩, rfl⟩
    rw [hok]
    apply (defaultsLoop_iff required F.attrs _ hn).1.mpr
    intro f hf hr
    rcases hA.complete f hf hr with h | h
    · exact Or.inl h
    · exact Or.inr ((hsup _ hok f.typ).mpr h)

/-- **C15, the values.**  On success the new object has, for every attribute type, exactly the
template's value, or the default of the class for what was left out, or nothing. -/
theorem C15_values (F : Factory) (k : Nat × Nat) (hF : (k, F) ∈ registry) (tm : Template)
    (reserved required : Nat) (o : Obj) (h : internalObjectCreate F tm reserved required = .ok o) (t : Nat) :
    NewValue F tm t (value o t) := by
  have hn : (F.attrs.map FAttr.typ).Nodup := by
    have := allFactories_spec tables_nodup hF; simpa using this
  have hcls : F.cls < 2 ^ 64 := by
    have := allFactories_spec classes_small hF; simpa using this
  have h0 : (Obj.new F.cls).find CKA_CLASS = some (Attr.ofUlong CKA_CLASS F.cls) := by
    rw [new_find, if_pos rfl]
  have hig : ∀ t, Marked F t oaIgnored → (Obj.new F.cls).find t = none := by
    intro t ht
    rw [new_find, if_neg]
    intro e; subst e; exact class_not_ignored hF ht
  have hA := (C15_accepts_iff F k hF tm reserved required).mp ⟨o, h⟩
  unfold internalObjectCreate at h
  cases hl : createLoop F.attrs reserved (Obj.new F.cls) tm with
  | error e => rw [hl] at h; cases h
  | ok o1 =>
    rw [hl] at h
    obtain ⟨_, rfl⟩ := (createLoop_iff hn reserved hcls tm _ o1 h0 hig).mp hl
    obtain ⟨_, hv⟩ := (defaultsLoop_iff required F.attrs _ hn).2 o h
    rw [value_eq, hv t]
    have hfind : ({ Obj.new F.cls with attrs := (Obj.new F.cls).attrs ++ contrib F.attrs tm } : Obj).find t
        = ((Obj.new F.cls).find t).or ((contrib F.attrs tm).find? fun a => a.typ == t) := by
      simp [Obj.find, List.find?_append]
    rw [hfind, new_find]
    by_cases ht : t = CKA_CLASS
    · subst ht; simp only [if_true, Option.some_or, Option.map_some]; exact .cls rfl
    · simp only [if_neg ht, Option.none_or]
      cases hc : (contrib F.attrs tm).find? (fun a => a.typ == t) with
      | some a =>
        obtain ⟨c, hc1, hc2, hc3, hc4⟩ := contrib_find_some hn hc
        simp only [Option.some_or, Option.map_some]
        exact .given c a ht hc4 hc1 hc2 hc3
      | none =>
        have hns : ¬ Supplies F tm t := by
          rintro (e | ⟨h1, c, hc1, hc2⟩)
          · exact ht e
          · rcases contrib_find_none hn hc c hc1 hc2 (hA.known c hc1) with h | h
            · exact h1 h
            · rcases hA.values c hc1 with h' | h'
              · rw [hc2] at h'; exact h1 h'
              · exact h h'
        simp only [Option.none_or]
        cases hf : findF F.attrs t with
        | none =>
          simp only [Option.map_none]
          exact .absent hns (fun f hf' e => absurd e (findF_none hf f hf'))
        | some f =>
          simp only
          by_cases hd : f.hasDefault = true
          · simp only [hd, if_true, Option.map_some]
            exact .default f hns (findF_mem hf) (findF_typ hf) hd
          · simp only [hd, Bool.false_eq_true, if_false, Option.map_none]
            refine .absent hns ?_
            intro g hg hgt
            have := findF_of_mem hn hg
            rw [hgt, hf] at this
            injection this with this
            rw [← this]; simpa using hd

/-! ## C_CreateObject -/

/-- The attributes that the creation code of each object type computes itself: the unique id; for keys
CKA_LOCAL and the two history attributes; and type-specific ones. -/
def computed : FactoryKind → List Nat
  | .data | .x509 | .nssTrust | .profile | .mechanism | .validation => [CKA_UNIQUE_ID]
  | .trust => [CKA_UNIQUE_ID, CKA_NAME_HASH_ALGORITHM]
  | .genericSecret _ | .aes =>
    [CKA_UNIQUE_ID, CKA_LOCAL, CKA_ALWAYS_SENSITIVE, CKA_NEVER_EXTRACTABLE, CKA_VALUE_LEN]
  | .hotp =>
    [CKA_UNIQUE_ID, CKA_LOCAL, CKA_ALWAYS_SENSITIVE, CKA_NEVER_EXTRACTABLE, CKA_VALUE_LEN, CKA_KEY_TYPE,
     CKA_ALLOWED_MECHANISMS]
  | .rsaPub | .rsaPriv =>
    [CKA_UNIQUE_ID, CKA_LOCAL, CKA_ALWAYS_SENSITIVE, CKA_NEVER_EXTRACTABLE, CKA_PUBLIC_KEY_INFO]
  | _ =>
    [CKA_UNIQUE_ID, CKA_LOCAL, CKA_ALWAYS_SENSITIVE, CKA_NEVER_EXTRACTABLE, CKA_PUBLIC_KEY_INFO, CKA_VALUE,
     CKA_EC_POINT]

/-- `o'` has the same attributes as `o` except possibly those in `l`. -/
def SameBut (l : List Nat) (o o' : Obj) : Prop := ∀ t, t ∉ l → o'.find t = o.find t

theorem SameBut.rfl' {l : List Nat} {o : Obj} : SameBut l o o := fun _ _ => rfl

theorem SameBut.trans' {l : List Nat} {o o' o'' : Obj} (h1 : SameBut l o o') (h2 : SameBut l o' o'') :
    SameBut l o o'' := fun t ht => by rw [h2 t ht, h1 t ht]

theorem same_setBool {l : List Nat} {o : Obj} {t : Nat} (b : Bool) (h : t ∈ l) : SameBut l o (o.setBool t b) := by
  intro u hu
  rw [find_setBool, if_neg]
  intro e; subst e; exact hu h

theorem same_put {l : List Nat} {o : Obj} {a : Attr} (h : a.typ ∈ l) : SameBut l o (o.put a) := by
  intro u hu
  rw [find_put, if_neg]
  intro e; subst e; exact hu h

theorem same_unique {l : List Nat} {o : Obj} (uid : Bytes) (h : CKA_UNIQUE_ID ∈ l) :
    SameBut l o (o.generateUnique uid) := by
  intro u hu
  unfold Obj.generateUnique
  split
  · rfl
  · rw [find_push]
    have : (Attr.ofString CKA_UNIQUE_ID uid).typ ≠ u := by
      intro e; exact hu (by rw [← e]; exact h)
    simp [this]

theorem same_ensureUlong {l : List Nat} {o o' : Obj} {t v : Nat} (h : t ∈ l) (he : o.ensureUlong t v = .ok o') :
    SameBut l o o' := by
  intro u hu
  unfold Obj.ensureUlong at he
  split at he
  · split at he
    · cases he
    · split at he
      · cases he
      · injection he with he; rw [he]
  · injection he with he
    rw [← he, find_push]
    have : (Attr.ofUlong t v).typ ≠ u := by intro e; exact hu (by rw [← e]; exact h)
    simp [this]

theorem ensureUlong_present {o o' : Obj} {t v : Nat} (hp : o.find t ≠ none) (he : o.ensureUlong t v = .ok o') :
    o' = o := by
  unfold Obj.ensureUlong at he
  split at he
  · split at he
    · cases he
    · split at he
      · cases he
      · injection he with he; exact he.symm
  · rename_i h; exact absurd h hp

theorem same_ensureBytes {l : List Nat} {o o' : Obj} {t : Nat} {v : Bytes} (h : t ∈ l)
    (he : o.ensureBytes t v = .ok o') : SameBut l o o' := by
  intro u hu
  unfold Obj.ensureBytes at he
  split at he
  · split at he
    · cases he
    · injection he with he; rw [he]
  · injection he with he
    rw [← he, find_push]
    have : (Attr.ofBytes t v).typ ≠ u := by intro e; exact hu (by rw [← e]; exact h)
    simp [this]

theorem same_foldl_put {l : List Nat} : ∀ (upd : List Attr) (o : Obj), (∀ a ∈ upd, a.typ ∈ l) →
    SameBut l o (upd.foldl Obj.put o)
  | [], _, _ => .rfl'
  | a :: upd, o, h => by
    simp only [List.foldl_cons]
    exact (same_put (h a (List.mem_cons_self ..))).trans'
      (same_foldl_put upd _ (fun b hb => h b (List.mem_cons_of_mem _ hb)))

theorem keyCreate_same {F : Factory} {uid : Bytes} {t : Template} {o : Obj} {l : List Nat}
    (h1 : CKA_UNIQUE_ID ∈ l) (h2 : CKA_LOCAL ∈ l) (h3 : CKA_ALWAYS_SENSITIVE ∈ l)
    (h4 : CKA_NEVER_EXTRACTABLE ∈ l) (h : keyCreate F uid t = .ok o) :
    ∃ o0, internalObjectCreate F t oaNeverSettable oaRequiredOnCreate = .ok o0 ∧ SameBut l o0 o := by
  unfold keyCreate internalKeyCreate at h
  cases hi : internalObjectCreate F t oaNeverSettable oaRequiredOnCreate with
  | error e => rw [hi] at h; cases h
  | ok o0 =>
    rw [hi] at h
    refine ⟨o0, rfl, ?_⟩
    simp only at h
    have s1 : SameBut l o0 (o0.generateUnique uid) := same_unique uid h1
    have fin : ∀ o1, SameBut l o0 o1 → (if Obj.secretClass o1.cls = true then
        Except.ok ((o1.setBool CKA_ALWAYS_SENSITIVE false).setBool CKA_NEVER_EXTRACTABLE false)
        else (Except.ok o1 : Res Obj)) = .ok o → SameBut l o0 o := by
      intro o1 s2 h
      split at h
      · injection h with h; subst h
        exact (s2.trans' (same_setBool _ h3)).trans' (same_setBool _ h4)
      · injection h with h; subst h; exact s2
    split at h
    · exact fin _ (s1.trans' (same_setBool _ h2)) h
    · exact fin _ s1 h

theorem hotpValidate_same {o o' : Obj} {l : List Nat} (h1 : CKA_KEY_TYPE ∈ l) (h2 : CKA_ALLOWED_MECHANISMS ∈ l)
    (hc : o.find CKA_CLASS ≠ none) (h : hotpValidate o = .ok o') : SameBut l o o' := by
  unfold hotpValidate at h
  split at h
  · cases h
  · rename_i o1 he1
    have := ensureUlong_present hc he1
    subst this
    split at h
    · cases h
    · rename_i o2 he2
      have s := same_ensureUlong h1 he2
      split at h
      · cases h
      · simp only at h
        split at h
        · cases h
        · rename_i o3 hm
          have s2 : SameBut l o2 o3 := by
            split at hm
            · split at hm
              · injection hm with hm; subst hm; exact same_put h2
              · split at hm
                · cases hm
                · injection hm with hm; subst hm; exact .rfl'
            · injection hm with hm; subst hm; exact same_put h2
          split at h
          · cases h
          · injection h with h; subst h; exact s.trans' s2

theorem create_find_class {F : Factory} {k : Nat × Nat} (hF : (k, F) ∈ registry) {t : Template} {o : Obj}
    {reserved required : Nat} (h : internalObjectCreate F t reserved required = .ok o) :
    o.find CKA_CLASS ≠ none := by
  have := C15_values F k hF t reserved required o h CKA_CLASS
  rw [value_eq] at this
  intro hn
  rw [hn] at this
  generalize hx : Option.map Attr.value none = x at this
  cases this with
  | cls e => cases hx
  | given _ _ e => exact e rfl
  | default _ e => exact e (Or.inl rfl)
  | absent e => exact e (Or.inl rfl)

theorem asymChecks_same {O : Oracle} {k : FactoryKind} {o o' : Obj} {l : List Nat}
    (h1 : CKA_PUBLIC_KEY_INFO ∈ l) (h2 : CKA_VALUE ∈ l) (h3 : CKA_EC_POINT ∈ l)
    (h : asymChecks O k o = .ok o') : SameBut l o o' := by
  unfold asymChecks at h
  split at h
  · cases h
  · injection h with h
    subst h
    apply same_foldl_put
    intro a ha
    rw [List.mem_filter] at ha
    have := ha.2
    simp [asymUpdTypes] at this
    rcases this with h | h | h <;> (rw [h]; assumption)

/-- Every successful creation is a generic creation followed by changes of the computed attributes. -/
theorem create_same (O : Oracle) (uid : Bytes) (F : Factory) (k : Nat × Nat) (hF : (k, F) ∈ registry)
    (t : Template) (o : Obj) (h : F.create O uid t = .ok o) :
    ∃ o0, internalObjectCreate F t oaNeverSettable oaRequiredOnCreate = .ok o0 ∧
      SameBut (computed F.kind) o0 o := by
  have hdef : ∀ {o1 : Obj} {l : List Nat}, CKA_UNIQUE_ID ∈ l → defaultObjectCreate F uid t = .ok o1 →
      ∃ o0, internalObjectCreate F t oaNeverSettable oaRequiredOnCreate = .ok o0 ∧ SameBut l o0 o1 := by
    intro o1 l hl h1
    unfold defaultObjectCreate at h1
    split at h1
    · cases h1
    · rename_i o0 h0
      injection h1 with h1; subst h1
      exact ⟨o0, h0, same_unique uid hl⟩
  have hkey : ∀ {o1 : Obj} {l : List Nat}, CKA_UNIQUE_ID ∈ l → CKA_LOCAL ∈ l → CKA_ALWAYS_SENSITIVE ∈ l →
      CKA_NEVER_EXTRACTABLE ∈ l → keyCreate F uid t = .ok o1 →
      ∃ o0, internalObjectCreate F t oaNeverSettable oaRequiredOnCreate = .ok o0 ∧ SameBut l o0 o1 :=
    fun a b c d e => keyCreate_same a b c d e
  have hasym : ∀ kd, F.kind = kd → computed kd = [CKA_UNIQUE_ID, CKA_LOCAL, CKA_ALWAYS_SENSITIVE,
      CKA_NEVER_EXTRACTABLE, CKA_PUBLIC_KEY_INFO, CKA_VALUE, CKA_EC_POINT] →
      (match keyCreate F uid t with
        | .error e => .error e
        | .ok o => asymChecks O kd o) = Except.ok o →
      ∃ o0, internalObjectCreate F t oaNeverSettable oaRequiredOnCreate = .ok o0 ∧
        SameBut (computed F.kind) o0 o := by
    intro kd hk hcomp h
    rw [hk, hcomp]
    split at h
    · cases h
    · rename_i o1 h1
      obtain ⟨o0, h0, hs⟩ := hkey (l := [CKA_UNIQUE_ID, CKA_LOCAL, CKA_ALWAYS_SENSITIVE,
        CKA_NEVER_EXTRACTABLE, CKA_PUBLIC_KEY_INFO, CKA_VALUE, CKA_EC_POINT])
        (by simp) (by simp) (by simp) (by simp) h1
      exact ⟨o0, h0, hs.trans' (asymChecks_same (by simp) (by simp) (by simp) h)⟩
  unfold Factory.create at h
  cases hk : F.kind with
  | data => rw [hk] at h; exact hdef (by simp [computed]) h
  | x509 =>
    rw [hk] at h
    simp only at h
    split at h
    · cases h
    · rename_i o1 h1
      split at h
      · cases h
      · injection h with h; subst h; exact hdef (by simp [computed]) h1
  | trust =>
    rw [hk] at h
    simp only at h
    split at h
    · cases h
    · rename_i o1 h1
      obtain ⟨o0, h0, hs⟩ := hdef (l := computed .trust) (by simp [computed]) h1
      refine ⟨o0, h0, hs.trans' ?_⟩
      unfold trustChecks at h
      split at h
      · cases h
      · rename_i o2 h2
        have hp : o1.find CKA_CLASS ≠ none := by
          rw [hs CKA_CLASS (by decide)]; exact create_find_class hF h0
        have := ensureUlong_present hp h2
        subst this
        split at h
        · cases h
        · split at h
          · cases h
          · split at h
            · cases h
            · split at h
              · cases h
              · injection h with h; subst h; exact .rfl'
        · split at h
          · injection h with h; subst h; exact same_put (by decide)
          · injection h with h; subst h; exact .rfl'
  | nssTrust =>
    rw [hk] at h
    simp only at h
    split at h
    · cases h
    · rename_i o1 h1
      obtain ⟨o0, h0, hs⟩ := hdef (l := computed .nssTrust) (by simp [computed]) h1
      refine ⟨o0, h0, hs.trans' ?_⟩
      unfold nssTrustChecks at h
      split at h
      · cases h
      · rename_i o2 h2
        have hp : o1.find CKA_CLASS ≠ none := by
          rw [hs CKA_CLASS (by decide)]; exact create_find_class hF h0
        have := ensureUlong_present hp h2
        subst this
        split at h
        · cases h
        · injection h with h; subst h; exact .rfl'
  | profile => rw [hk] at h; cases h
  | mechanism => rw [hk] at h; cases h
  | validation => rw [hk] at h; cases h
  | genericSecret ks =>
    rw [hk] at h
    simp only at h
    split at h
    · cases h
    · rename_i o1 h1
      obtain ⟨o0, h0, hs⟩ := hkey (l := computed (.genericSecret ks)) (by simp [computed]) (by simp [computed])
        (by simp [computed]) (by simp [computed]) h1
      split at h
      · cases h
      · split at h
        · cases h
        · split at h
          · cases h
          · exact ⟨o0, h0, hs.trans' (same_ensureUlong (by simp [computed]) h)⟩
  | aes =>
    rw [hk] at h
    simp only at h
    split at h
    · cases h
    · rename_i o1 h1
      obtain ⟨o0, h0, hs⟩ := hkey (l := computed .aes) (by simp [computed]) (by simp [computed])
        (by simp [computed]) (by simp [computed]) h1
      split at h
      · cases h
      · split at h
        · cases h
        · exact ⟨o0, h0, hs.trans' (same_ensureUlong (by simp [computed]) h)⟩
  | hotp =>
    rw [hk] at h
    simp only at h
    split at h
    · cases h
    · rename_i o1 h1
      obtain ⟨o0, h0, hs⟩ := hkey (l := computed .hotp) (by simp [computed]) (by simp [computed])
        (by simp [computed]) (by simp [computed]) h1
      split at h
      · cases h
      · rename_i len _
        split at h
        · cases h
        · have s1 : SameBut (computed .hotp) o1 (o1.put (Attr.ofUlong CKA_VALUE_LEN len)) :=
            same_put (by simp [computed, Attr.ofUlong])
          refine ⟨o0, h0, (hs.trans' s1).trans' (hotpValidate_same (by simp [computed]) (by simp [computed]) ?_ h)⟩
          rw [s1 CKA_CLASS (by decide), hs CKA_CLASS (by decide)]
          exact create_find_class hF h0
  | rsaPub =>
    rw [hk] at h
    simp only at h
    split at h
    · cases h
    · rename_i o1 h1
      obtain ⟨o0, h0, hs⟩ := hkey (l := computed .rsaPub) (by simp [computed]) (by simp [computed])
        (by simp [computed]) (by simp [computed]) h1
      split at h
      · cases h
      · unfold rsaPublicKeyInfo at h
        split at h
        · cases h
        · split at h
          · cases h
          · split at h
            · cases h
            · exact ⟨o0, h0, hs.trans' (same_ensureBytes (by simp [computed]) h)⟩
  | rsaPriv =>
    rw [hk] at h
    simp only at h
    split at h
    · cases h
    · rename_i o1 h1
      obtain ⟨o0, h0, hs⟩ := hkey (l := computed .rsaPriv) (by simp [computed]) (by simp [computed])
        (by simp [computed]) (by simp [computed]) h1
      split at h
      · cases h
      · unfold rsaPublicKeyInfo at h
        split at h
        · cases h
        · split at h
          · cases h
          · split at h
            · cases h
            · exact ⟨o0, h0, hs.trans' (same_ensureBytes (by simp [computed]) h)⟩
  | _ =>
    rw [hk] at h
    have := hasym _ hk rfl h
    rw [hk] at this
    exact this

/-- **C15, C_CreateObject.**  C_CreateObject succeeds only if the template's class (and key or
certificate type) selects an object type of the token and the template is acceptable for it with the
attributes marked "never settable" reserved and those marked "required on create" required; the new
object then has, for every attribute type except those the token computes, exactly the template's value
or the default. -/
theorem C15_create_object (O : Oracle) (uid : Bytes) (tm : Template) (o : Obj)
    (h : factoriesCreate O uid tm = .ok o) :
    ∃ F k, (k, F) ∈ registry ∧ createSelect tm = .ok F ∧
      Acceptable F oaNeverSettable oaRequiredOnCreate tm ∧
      ∀ t, t ∉ computed F.kind → NewValue F tm t (value o t) := by
  unfold factoriesCreate at h
  cases hs : createSelect tm with
  | error e => rw [hs] at h; cases h
  | ok F =>
    rw [hs] at h
    simp only at h
    have hmem : ∃ k, (k, F) ∈ registry := by
      unfold createSelect at hs
      split at hs
      · cases hs
      · simp only at hs
        split at hs
        · cases hs
        · exact ⟨_, getFactory_mem hs⟩
    obtain ⟨k, hF⟩ := hmem
    obtain ⟨o0, h0, hsame⟩ := create_same O uid F k hF tm o h
    refine ⟨F, k, hF, rfl, (C15_accepts_iff F k hF tm _ _).mp ⟨o0, h0⟩, ?_⟩
    intro t ht
    have := C15_values F k hF tm _ _ o0 h0 t
    rw [value_eq] at this ⊢
    rw [hsame t ht]; exact this

/-! ## The hypotheses are met, and rejections happen -/

example : ((CKO_SECRET_KEY, CKK_AES), aesF) ∈ registry ∧ createSelect exAesTemplate = .ok aesF ∧
    isOk (factoriesCreate exOracle exUid exAesTemplate) = true := by decide +kernel

example : internalObjectCreate aesF (exAesTemplate ++ [.ofBool CKA_ENCRYPT true]) oaNeverSettable oaRequiredOnCreate
      = .error .templateInconsistent ∧
    internalObjectCreate aesF (exAesTemplate ++ [.ofBool CKA_TRUSTED true]) oaNeverSettable oaRequiredOnCreate
      = .error .attrTypeInvalid ∧
    internalObjectCreate aesF (exAesTemplate ++ [.mk' CKA_MODULUS [1]]) oaNeverSettable oaRequiredOnCreate
      = .error .attrValueInvalid ∧
    internalObjectCreate aesF [.ofUlong CKA_CLASS CKO_SECRET_KEY] oaNeverSettable oaRequiredOnCreate
      = .error .templateIncomplete := by decide +kernel

end Kry
