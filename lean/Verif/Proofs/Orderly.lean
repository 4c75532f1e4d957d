import Verif.Spec.Orderly
import Verif.Proofs.ReadBack
import Verif.Proofs.Gone
import Verif.Proofs.Typed

/-!
# Objects in memory are orderly

Every way to make or change an object keeps it so.
-/

namespace Kry
open Spec

theorem neat_canon {a : Attr} (h : Canon a) : Neat a := by
  obtain ⟨t, k, v⟩ := a
  obtain ⟨hk, hv⟩ := h
  simp only at hk hv
  refine ⟨fun h => ?_, fun h => ?_⟩
  · simp only at h
    rw [hk] at h; injection h with h; subst h
    rcases hv with hv | hv
    · exact ⟨false, by simp [Attr.ofBool, hv]⟩
    · exact ⟨true, by simp [Attr.ofBool, hv]⟩
  · simp only at h
    rw [hk] at h; injection h with h; subst h
    exact ⟨rfl, hv⟩

theorem neat_fromCk {c : CkAttr} {a : Attr} (h : Attr.fromCk c = .ok a) : Neat a := neat_canon (canon_fromCk h)

theorem neat_bool (t : Nat) (b : Bool) (h : attrKind t ≠ some .num) : Neat (Attr.ofBool t b) :=
  ⟨fun _ => ⟨b, rfl⟩, fun h' => absurd h' h⟩

theorem neat_ulong (t v : Nat) (h : attrKind t ≠ some .bool) : Neat (Attr.ofUlong t v) :=
  ⟨fun h' => absurd h' h, fun _ => ⟨rfl, ulongBytes_length _⟩⟩

theorem neat_other {a : Attr} (h : attrKind a.typ ≠ some .bool) (h' : attrKind a.typ ≠ some .num) : Neat a :=
  ⟨fun x => absurd x h, fun x => absurd x h'⟩

theorem orderly_new (c : Nat) (h : c < 2 ^ 64) : Orderly (Obj.new c) := by
  refine ⟨fun a ha => ?_, clsOk_new c h⟩
  have : a = Attr.ofUlong CKA_CLASS c := by simpa [Obj.new] using ha
  subst this
  exact neat_ulong _ _ (by decide +kernel)

theorem orderly_push {o : Obj} {a : Attr} (h : Orderly o) (ha : Neat a) : Orderly (o.push a) := by
  refine ⟨fun b hb => ?_, ?_⟩
  · simp only [Obj.push, List.mem_append, List.mem_singleton] at hb
    rcases hb with hb | hb
    · exact h.neat b hb
    · rw [hb]; exact ha
  · obtain ⟨b, h1, h2⟩ := h.cls
    refine ⟨b, ?_, h2⟩
    have := find_push o a CKA_CLASS
    rw [this, h1]; rfl

theorem orderly_put {o : Obj} {a : Attr} (h : Orderly o) (ha : Neat a) (hc : a.typ ≠ CKA_CLASS) : Orderly (o.put a) := by
  have hs : o.setAttr a = .ok (o.put a) := by unfold Obj.setAttr; rw [if_neg hc]; rfl
  refine ⟨fun b hb => ?_, clsOk_setAttr h.cls hs⟩
  rcases mem_setList hb with hb | hb
  · rw [hb]; exact ha
  · exact h.neat b hb

theorem orderly_setAttr {o o' : Obj} {a : Attr} (hs : o.setAttr a = .ok o') (h : Orderly o) (ha : Neat a) :
    Orderly o' := by
  refine ⟨fun b hb => ?_, clsOk_setAttr h.cls hs⟩
  have : o'.attrs = Obj.setList o.attrs a := by
    unfold Obj.setAttr at hs
    repeat' split at hs
    all_goals first | (cases hs; done) | (injection hs with hs; rw [← hs])
  rw [this] at hb
  rcases mem_setList hb with hb | hb
  · rw [hb]; exact ha
  · exact h.neat b hb

theorem orderly_setBool {o : Obj} {t : Nat} {b : Bool} (h : Orderly o) (ht : attrKind t = some .bool) :
    Orderly (o.setBool t b) := by
  refine orderly_put (a := Attr.ofBool t b) h (neat_bool _ _ (by rw [ht]; simp)) ?_
  rintro (e : t = CKA_CLASS)
  rw [e] at ht
  exact absurd ht (by decide +kernel)

theorem orderly_createLoop {fa : List FAttr} {u : Nat} {tm : Template} {o o' : Obj}
    (hc : createLoop fa u o tm = .ok o') (h : Orderly o) : Orderly o' := by
  induction tm generalizing o with
  | nil => injection hc with hc; rw [← hc]; exact h
  | cons c tm ih =>
    unfold createLoop at hc
    split at hc
    · cases hc
    split at hc
    · cases hc
    · extract_lets dup at hc
      clear_value dup
      split at hc
      · cases hc
      · split at hc
        · exact ih hc h
        · split at hc
          · cases hc
          · rename_i a ha
            exact ih hc (orderly_push h (neat_fromCk ha))

/-- Attributes of the tables are neat. -/
def neatB (a : Attr) : Bool :=
  match attrKind a.typ with
  | some .bool => a == Attr.ofBool a.typ true || a == Attr.ofBool a.typ false
  | some .num => a.atype == .num && a.value.length == 8
  | _ => true

theorem neat_of {a : Attr} (h : neatB a = true) : Neat a := by
  unfold neatB at h
  constructor
  · intro hk
    rw [hk] at h
    simp at h
    rcases h with h | h <;> exact ⟨_, h⟩
  · intro hk
    rw [hk] at h
    simpa using h

theorem neat_tables : allFactories (fun F => F.attrs.all (fun f => !f.hasDefault || neatB f.attr) && decide (F.cls < 2 ^ 64)) = true := by
  decide +kernel

theorem orderly_defaultsLoop {q : Nat} {fa : List FAttr} {o o' : Obj} (hf : ∀ f ∈ fa, f.hasDefault = true → Neat f.attr)
    (hc : defaultsLoop q o fa = .ok o') (h : Orderly o) : Orderly o' := by
  induction fa generalizing o with
  | nil => injection hc with hc; rw [← hc]; exact h
  | cons f fa ih =>
    have hr := fun f' h' => hf f' (List.mem_cons_of_mem _ h')
    unfold defaultsLoop at hc
    repeat' split at hc
    all_goals first
      | (cases hc; done)
      | exact ih hr hc h
      | exact ih hr hc (orderly_push h (hf f (List.mem_cons_self ..) (by assumption)))

theorem orderly_generateUnique {o : Obj} {uid : Bytes} (h : Orderly o) : Orderly (o.generateUnique uid) := by
  unfold Obj.generateUnique
  split
  · exact h
  · exact orderly_push h (neat_other (a := Attr.ofString CKA_UNIQUE_ID uid)
      (show attrKind CKA_UNIQUE_ID ≠ _ by decide +kernel) (show attrKind CKA_UNIQUE_ID ≠ _ by decide +kernel))

theorem orderly_internal {F : Factory} {k : Nat × Nat} (hF : (k, F) ∈ registry) {tm : Template} {a b : Nat} {o : Obj}
    (hc : internalObjectCreate F tm a b = .ok o) : Orderly o := by
  have ht := allFactories_spec neat_tables hF
  simp only [Bool.and_eq_true, List.all_eq_true, decide_eq_true_eq] at ht
  unfold internalObjectCreate at hc
  split at hc
  · cases hc
  · rename_i o0 h0
    exact orderly_defaultsLoop (fun f hf hd => neat_of (by have := ht.1 f hf; rw [hd] at this; simpa using this)) hc (orderly_createLoop h0 (orderly_new _ ht.2))

theorem orderly_keyInternal {F : Factory} {k : Nat × Nat} (hF : (k, F) ∈ registry) {uid : Bytes} {tm : Template}
    {a b : Nat} {o : Obj} (hc : internalKeyCreate F uid tm a b = .ok o) : Orderly o := by
  unfold internalKeyCreate at hc
  split at hc
  · cases hc
  · rename_i o0 h0
    injection hc with hc; rw [← hc]; exact orderly_generateUnique (orderly_internal hF h0)

theorem orderly_default {F : Factory} {k : Nat × Nat} (hF : (k, F) ∈ registry) {uid : Bytes} {tm : Template} {o : Obj}
    (hc : defaultObjectCreate F uid tm = .ok o) : Orderly o := by
  unfold defaultObjectCreate at hc
  split at hc
  · cases hc
  · rename_i o0 h0
    injection hc with hc; rw [← hc]; exact orderly_generateUnique (orderly_internal hF h0)

theorem orderly_keyCreate {F : Factory} {k : Nat × Nat} (hF : (k, F) ∈ registry) {uid : Bytes} {tm : Template} {o : Obj}
    (hc : keyCreate F uid tm = .ok o) : Orderly o := by
  unfold keyCreate at hc
  split at hc
  · cases hc
  · rename_i o0 h0
    have hz := orderly_keyInternal hF h0
    have hl : attrKind CKA_LOCAL = some .bool := by decide +kernel
    have hs : attrKind CKA_ALWAYS_SENSITIVE = some .bool := by decide +kernel
    have hn : attrKind CKA_NEVER_EXTRACTABLE = some .bool := by decide +kernel
    simp only at hc
    repeat' split at hc
    all_goals
      injection hc with hc; rw [← hc]
      first
        | exact hz
        | exact orderly_setBool hz hl
        | exact orderly_setBool (orderly_setBool hz hs) hn
        | exact orderly_setBool (orderly_setBool (orderly_setBool hz hl) hs) hn

theorem orderly_ensureUlong {o o' : Obj} {t v : Nat} (hc : o.ensureUlong t v = .ok o') (h : Orderly o)
    (ht : attrKind t ≠ some .bool) : Orderly o' := by
  unfold Obj.ensureUlong at hc
  repeat' split at hc
  all_goals first
    | (cases hc; done)
    | (injection hc with hc; rw [← hc]; exact h)
    | (injection hc with hc; rw [← hc]; exact orderly_push h (neat_ulong _ _ ht))

theorem orderly_trust {o o' : Obj} (hc : trustChecks o = .ok o') (h : Orderly o) : Orderly o' := by
  unfold trustChecks at hc
  split at hc
  · cases hc
  · rename_i o1 h1
    have z1 := orderly_ensureUlong h1 h (by decide +kernel)
    repeat' split at hc
    all_goals first
      | (cases hc; done)
      | (injection hc with hc; rw [← hc]; exact z1)
      | (injection hc with hc; rw [← hc]; exact orderly_put z1 (neat_ulong _ _ (by decide +kernel)) (by decide))

theorem orderly_nssTrust {o o' : Obj} (hc : nssTrustChecks o = .ok o') (h : Orderly o) : Orderly o' := by
  unfold nssTrustChecks at hc
  repeat' split at hc
  all_goals first
    | (cases hc; done)
    | (injection hc with hc; rw [← hc]; exact orderly_ensureUlong (by assumption) h (by decide +kernel))

theorem orderly_hotp {o o' : Obj} (hc : hotpValidate o = .ok o') (h : Orderly o) : Orderly o' := by
  unfold hotpValidate at hc
  split at hc
  · cases hc
  · rename_i o1 h1
    have z1 := orderly_ensureUlong h1 h (by decide +kernel)
    split at hc
    · cases hc
    · rename_i o2 h2
      have z2 := orderly_ensureUlong h2 z1 (by decide +kernel)
      have z3 : Orderly (o2.put (Attr.ofBytes CKA_ALLOWED_MECHANISMS (ulongBytes CKM_HOTP))) :=
        orderly_put z2 (neat_other (by decide +kernel) (by decide +kernel)) (by decide)
      split at hc
      · cases hc
      · simp only at hc
        repeat' split at hc
        all_goals first
          | (cases hc; done)
          | skip
        all_goals
          injection hc with hc
          subst hc
          rename_i hm _ _
          repeat' split at hm
          all_goals first
            | (cases hm; done)
            | (injection hm with hm; rw [← hm]; exact z2)
            | (injection hm with hm; rw [← hm]; exact z3)

theorem orderly_asym {O : Oracle} {k : FactoryKind} {o o' : Obj} (hc : asymChecks O k o = .ok o')
    (h : Orderly o) : Orderly o' := by
  unfold asymChecks at hc
  split at hc
  · cases hc
  · rename_i l hl
    clear hl
    injection hc with hc
    rw [← hc]
    have hm : ∀ a ∈ l.filter (fun a => asymUpdTypes.contains a.typ), a.typ ∈ asymUpdTypes := by
      intro a ha
      simpa using (List.mem_filter.1 ha).2
    generalize l.filter (fun a => asymUpdTypes.contains a.typ) = m at hm
    clear hc
    have hu : ∀ t ∈ asymUpdTypes, attrKind t ≠ some .bool ∧ attrKind t ≠ some .num ∧ t ≠ CKA_CLASS := by
      decide +kernel
    induction m generalizing o with
    | nil => exact h
    | cons a m ih =>
      have := hu _ (hm a (List.mem_cons_self ..))
      exact ih (o := o.put a) (orderly_put h (neat_other this.1 this.2.1) this.2.2)
        (fun b hb => hm b (List.mem_cons_of_mem _ hb))

theorem orderly_rsaInfo {O : Oracle} {o o' : Obj} (hc : rsaPublicKeyInfo O o = .ok o') (h : Orderly o) :
    Orderly o' := by
  unfold rsaPublicKeyInfo at hc
  repeat' split at hc
  all_goals first | (cases hc; done) | skip
  unfold Obj.ensureBytes at hc
  repeat' split at hc
  all_goals first
    | (cases hc; done)
    | (injection hc with hc; rw [← hc]; exact h)
    | (injection hc with hc; rw [← hc]; exact orderly_push h (neat_other
        (show attrKind CKA_PUBLIC_KEY_INFO ≠ _ by decide +kernel) (show attrKind CKA_PUBLIC_KEY_INFO ≠ _ by decide +kernel)))

/-- C_CreateObject. -/
theorem orderly_create {O : Oracle} {uid : Bytes} {tm : Template} {o : Obj}
    (hc : factoriesCreate O uid tm = .ok o) : Orderly o := by
  unfold factoriesCreate at hc
  split at hc
  · cases hc
  · rename_i F hs
    have hmem : ∃ k, (k, F) ∈ registry := by
      unfold createSelect at hs
      split at hs
      · cases hs
      · simp only at hs
        split at hs
        · cases hs
        · exact ⟨_, getFactory_mem hs⟩
    obtain ⟨k, hF⟩ := hmem
    unfold Factory.create at hc
    repeat' split at hc
    all_goals first
      | (cases hc; done)
      | exact orderly_default hF hc
      | (injection hc with hc; rw [← hc]; exact orderly_default hF (by assumption))
      | exact orderly_trust hc (orderly_default hF (by assumption))
      | exact orderly_nssTrust hc (orderly_default hF (by assumption))
      | exact orderly_ensureUlong hc (orderly_keyCreate hF (by assumption)) (by decide +kernel)
      | exact orderly_hotp hc (orderly_keyCreate hF (by assumption))
      | exact orderly_asym hc (orderly_keyCreate hF (by assumption))
      | exact orderly_rsaInfo hc (orderly_keyCreate hF (by assumption))
      | exact orderly_hotp hc (orderly_put (orderly_keyCreate hF (by assumption))
          (neat_other (by decide +kernel) (by decide +kernel)) (by decide))
      | exact orderly_hotp hc (orderly_put (orderly_keyCreate hF (by assumption))
          (neat_ulong _ _ (by decide +kernel)) (show CKA_VALUE_LEN ≠ CKA_CLASS by decide))

theorem orderly_applyTemplate {tm : Template} {o : Obj} (h : Orderly o) : Orderly (applyTemplate o tm).2 := by
  induction tm generalizing o with
  | nil => exact h
  | cons c tm ih =>
    unfold applyTemplate
    split
    · exact h
    · rename_i a ha
      split
      · exact h
      · rename_i o1 h1
        exact ih (orderly_setAttr h1 h (neat_fromCk ha))

theorem orderly_blindCopy {o : Obj} (uid : Bytes) (h : Orderly o) : Orderly (o.blindCopy uid) := by
  obtain ⟨b, h1, h2⟩ := h.cls
  have hlt : o.cls < 2 ^ 64 := by
    unfold Attr.toUlong at h2
    repeat' split at h2
    all_goals first | (cases h2; done) | skip
    injection h2 with h2
    rename_i hl
    rw [← h2]
    have := fromLE_lt b.value
    have hv : b.value.length = 8 := by
      have := h.neat b (find_mem h1)
      have hk : attrKind b.typ = some .num := by
        rw [find_typ h1]; decide +kernel
      exact (this.2 hk).2
    rw [hv] at this
    exact this
  have z := orderly_generateUnique (uid := uid) (orderly_new o.cls hlt)
  refine ⟨fun a ha => ?_, ?_⟩
  · unfold Obj.blindCopy at ha
    simp only [List.mem_append, List.mem_filter] at ha
    rcases ha with ha | ha
    · exact z.neat a ha
    · exact h.neat a ha.1
  · obtain ⟨c, h3, h4⟩ := z.cls
    have hcls : ((Obj.new o.cls).generateUnique uid).cls = o.cls := generateUnique_cls _ _
    refine ⟨c, ?_, ?_⟩
    · unfold Obj.find at h3 ⊢
      unfold Obj.blindCopy
      simp only [List.find?_append, h3]
      rfl
    · rw [h4, hcls]
      unfold Obj.blindCopy
      simp only [hcls]

/-- C_CopyObject. -/
theorem orderly_copy {uid : Bytes} {o o' : Obj} {tm : Template} (hc : factoriesCopy uid o tm = .ok o') (h : Orderly o) :
    Orderly o' := by
  obtain ⟨F, _, _, _, _, rfl⟩ := factoriesCopy_ok hc
  have z := orderly_applyTemplate (tm := tm) (orderly_blindCopy uid h)
  generalize (applyTemplate (o.blindCopy uid) tm).2 = p at z
  have z1 : Orderly (copyFixNeverExtractable o p) := by
    unfold copyFixNeverExtractable
    split
    · exact orderly_setBool z (by decide +kernel)
    · exact z
  unfold copyFixAlwaysSensitive
  split
  · exact orderly_setBool z1 (by decide +kernel)
  · exact z1


theorem orderly_decodeRows {rows : List (Nat × DbVal)} {o o' : Obj} (hd : decodeRows o rows = .ok o') (h : Orderly o) :
    Orderly o' := by
  induction rows generalizing o with
  | nil => injection hd with hd; rw [← hd]; exact h
  | cons p rows ih =>
    obtain ⟨t, v⟩ := p
    unfold decodeRows at hd
    split at hd
    · cases hd
    · rename_i a ha
      split at hd
      · cases hd
      · rename_i o1 h1
        exact ih hd (orderly_setAttr h1 h (neat_canon (canon_decode ha)))

theorem sensitive_other : allFactories (fun F => F.sensitive.all fun t =>
    attrKind t != some .bool && attrKind t != some .num) = true := by decide +kernel

theorem orderly_decryptLoop {C : Crypto} {e : Env} {a : Aci} {uid : Bytes} {ts : List Nat} {i : Nat} {o o' : Obj}
    (ht : ∀ t ∈ ts, attrKind t ≠ some .bool ∧ attrKind t ≠ some .num)
    (hd : decryptLoop C e a uid ts i o = .ok o') (h : Orderly o) : Orderly o' := by
  induction ts generalizing i o with
  | nil => injection hd with hd; rw [← hd]; exact h
  | cons t ts ih =>
    have hr := fun t' h' => ht t' (List.mem_cons_of_mem _ h')
    unfold decryptLoop at hd
    split at hd
    · exact ih hr hd h
    · split at hd
      · cases hd
      · split at hd
        · cases hd
        · rename_i o1 h1
          have := ht t (List.mem_cons_self ..)
          exact ih hr hd (orderly_setAttr h1 h (neat_other this.1 this.2))

/-- Objects read from storage. -/
theorem orderly_fetch {C : Crypto} {e : Env} {s : Store} {h : Handles} {n : Nat} {hints : List Nat} {o : Obj}
    (ok : TblOk s.db.objs) (hf : s.fetch C e h n hints = .ok o) : Orderly o := by
  unfold Store.fetch at hf
  split at hf
  · cases hf
  split at hf
  · cases hf
  rename_i o1 h1
  obtain ⟨r, _, _, _, hd⟩ := fetchByUid_ok ok h1
  have z1 := orderly_decodeRows hd (orderly_new _ (by decide))
  split at hf
  · cases hf
  rename_i F hF
  obtain ⟨k, hm⟩ := objFactory_mem hF
  have hs := allFactories_spec sensitive_other hm
  simp only [List.all_eq_true, Bool.and_eq_true, bne_iff_ne] at hs
  extract_lets dec at hf
  rcases h2 : dec with r | o2
  · rw [h2] at hf; cases hf
  · rw [h2] at hf
    injection hf with hf
    have z2 : Orderly o2 := by
      simp only [dec] at h2
      split at h2
      · exact orderly_decryptLoop hs h2 z1
      · injection h2 with h2; rw [← h2]; exact z1
    rw [← hf]
    exact ⟨z2.neat, z2.cls⟩

theorem orderly_ensureAll {o o' : Obj} {l : List Attr} (hl : ∀ a ∈ l, Neat a) (hc : ensureAll o l = .ok o')
    (h : Orderly o) : Orderly o' := by
  induction l generalizing o with
  | nil => injection hc with hc; rw [← hc]; exact h
  | cons a l ih =>
    have hr := fun t' h' => hl t' (List.mem_cons_of_mem _ h')
    unfold ensureAll at hc
    split at hc
    · split at hc
      · cases hc
      · exact ih hr hc h
    · exact ih hr hc (orderly_push h (hl a (List.mem_cons_self ..)))

theorem orderly_importSecret {F : Factory} {k : Nat × Nat} (hF : (k, F) ∈ registry) {uid data : Bytes} {tm : Template}
    {o : Obj} (hc : importSecret F uid data tm = .ok o) : Orderly o := by
  unfold importSecret at hc
  split at hc
  · cases hc
  · rename_i o1 h1
    have z := orderly_keyInternal hF h1
    unfold setKey at hc
    split at hc
    · cases hc
    · have z2 : Orderly (o1.put (Attr.ofBytes CKA_VALUE data)) :=
        orderly_put z (neat_other (show attrKind CKA_VALUE ≠ _ by decide +kernel) (show attrKind CKA_VALUE ≠ _ by decide +kernel))
          (show CKA_VALUE ≠ CKA_CLASS by decide)
      unfold setKeyLen at hc
      repeat' split at hc
      all_goals first | (cases hc; done) | exact orderly_ensureUlong hc z2 (by decide +kernel)

/-- Unwrapped and encapsulated keys. -/
theorem orderly_import {M : Mechs} (hM : OrderlyMechs M) {F : Factory} {k : Nat × Nat} (hF : (k, F) ∈ registry)
    {uid data : Bytes} {tm : Template} {o : Obj} (hc : importWrapped M uid F data tm = .ok o) : Orderly o := by
  unfold importWrapped at hc
  split at hc
  · exact orderly_importSecret hF hc
  · exact orderly_importSecret hF hc
  · unfold importAes at hc
    simp only at hc
    repeat' split at hc
    all_goals first | (cases hc; done) | exact orderly_importSecret hF hc
  all_goals
    repeat' split at hc
    all_goals first
      | (cases hc; done)
      | (rename_i h1 _ _ h2
         exact orderly_ensureAll (hM.importAttrs _ _ _ _ h2) hc (orderly_keyInternal hF h1))

theorem orderly_fresh {o : Obj} (h : Orderly o) : Orderly (fresh o) := by
  have hm : ∀ l : List Attr, ∀ a ∈ oneUid l, a ∈ l := by
    intro l
    induction l with
    | nil => intro a ha; exact ha
    | cons b l ih =>
      intro a ha
      unfold oneUid at ha
      split at ha
      · rcases List.mem_cons.1 ha with ha | ha
        · exact ha ▸ List.mem_cons_self ..
        · exact List.mem_cons_of_mem _ (List.mem_filter.1 ha).1
      · rcases List.mem_cons.1 ha with ha | ha
        · exact ha ▸ List.mem_cons_self ..
        · exact List.mem_cons_of_mem _ (ih a ha)
  have hf : ∀ l : List Attr, (oneUid l).find? (fun a => a.typ == CKA_CLASS) = l.find? (fun a => a.typ == CKA_CLASS) := by
    intro l
    induction l with
    | nil => rfl
    | cons b l ih =>
      unfold oneUid
      split
      · rename_i e
        rw [List.find?_cons, List.find?_cons, e]
        simp only [show (CKA_UNIQUE_ID == CKA_CLASS) = false from rfl]
        rw [List.find?_filter]
        congr 1
        funext a
        by_cases ha : a.typ = CKA_CLASS
        · simp [ha]
        · simp [ha]
      · rw [List.find?_cons, List.find?_cons, ih]
  refine ⟨fun a ha => h.neat a (hm _ a ha), ?_⟩
  obtain ⟨a, h1, h2⟩ := h.cls
  exact ⟨a, (hf o.attrs).trans h1, h2⟩

/-! ## Tokens -/

/-- All objects in memory are orderly. -/
def AllOrderly (t : Token) : Prop := ∀ n o, AMap.get t.sess n = some o → Orderly o

section
variable {C : Crypto}

theorem AllOrderly.sub {a b : Token} (h : AllOrderly a)
    (hs : ∀ n o, AMap.get b.sess n = some o → AMap.get a.sess n = some o) : AllOrderly b :=
  fun n o ho => h n o (hs n o ho)

theorem AllOrderly.eq {a b : Token} (h : AllOrderly a) (hs : b.sess = a.sess) : AllOrderly b :=
  h.sub fun n o ho => by rw [← hs]; exact ho

theorem orderly_insert {a : Token} (e : Env) (k : Nat) {o : Obj} (ho : Orderly o) (h : AllOrderly a) :
    AllOrderly (a.insertObject C e k o).2 := by
  unfold Token.insertObject
  split
  · split <;> exact h.eq rfl
  · simp only
    split
    · exact h.eq rfl
    · split
      · exact h.eq rfl
      · intro n o' hn
        simp only [AMap.get_insert] at hn
        split at hn
        · injection hn with hn
          rw [← hn]
          exact ⟨ho.neat, ho.cls⟩
        · exact h n o' hn

theorem orderly_builtins {e : Env} {t : Token} {cls ty : Nat} {l : List Nat} {n : Nat} (h : AllOrderly t) :
    AllOrderly (t.insertBuiltins C e cls ty l n).2 := by
  have one : ∀ (e : Env) (t : Token) (id : Nat), AllOrderly t → AllOrderly (t.insertBuiltin C e cls ty id).2 := by
    intro e t id h
    unfold Token.insertBuiltin
    split
    · exact h
    · rename_i F hF
      split
      · exact h
      · rename_i o ho
        have hz : Orderly o := by
          unfold builtinCreate at ho
          split at ho
          · cases ho
          · injection ho with ho
            rw [← ho]
            exact orderly_generateUnique (orderly_internal (getFactory_mem hF) (by assumption))
        have a := orderly_insert (C := C) e 0 hz h
        generalize t.insertObject C e 0 o = p at a ⊢
        obtain ⟨r, t1⟩ := p
        cases r <;> exact a
  induction l generalizing t n with
  | nil => exact h
  | cons id l ih =>
    unfold Token.insertBuiltins
    have a := one (e.sub n) t id h
    generalize t.insertBuiltin C (e.sub n) cls ty id = p at a ⊢
    obtain ⟨r, t1⟩ := p
    cases r with
    | error r => exact a
    | ok _ => exact ih a

theorem orderly_internalInit {e : Env} {t : Token} (h : AllOrderly t) : AllOrderly (t.internalInit C e).2 := by
  unfold Token.internalInit
  have a := orderly_builtins (C := C) (e := e.sub 0) (cls := CKO_PROFILE) (ty := CKA_PROFILE_ID) (l := Token.profiles) (n := 0) h
  generalize t.insertBuiltins C (e.sub 0) CKO_PROFILE CKA_PROFILE_ID Token.profiles 0 = p at a ⊢
  obtain ⟨r, t1⟩ := p
  cases r with
  | error r => exact a
  | ok _ => exact orderly_builtins a

theorem orderly_token {e : Env} {db : Db} {cfg : TokCfg} {t : Token} (h : Token.new C e db cfg = .ok t) : AllOrderly t := by
  have hn : ∀ t : Token, t.sess = [] → AllOrderly t := fun t ht n o ho => by rw [ht] at ho; cases ho
  unfold Token.new at h
  extract_lets src t0 tf sf t' at h
  have h0 : t0.sess = [] := rfl
  clear_value t0
  have h1 : ∀ t1, t' = .ok t1 → t1.sess = [] := by
    intro t1 h1
    simp only [t', tf, sf] at h1
    repeat' split at h1
    all_goals first | (cases h1; done) | (injection h1 with h1; rw [← h1]; exact h0)
  clear_value t'
  cases t' with
  | error r => cases h
  | ok t0 =>
    have a := orderly_internalInit (C := C) (e := e.sub 1) (hn t0 (h1 t0 rfl))
    simp only at h
    generalize t0.internalInit C (e.sub 1) = p at a h
    obtain ⟨r, t1⟩ := p
    cases r with
    | error r => cases h
    | ok _ => injection h with h; rw [← h]; exact a

theorem orderly_initToken {e : Env} {t : Token} {pin label : Bytes} (h : AllOrderly t) :
    AllOrderly (t.initToken C e pin label).2 := by
  have hn : ∀ t : Token, t.sess = [] → AllOrderly t := fun t ht n o ho => by rw [ht] at ho; cases ho
  unfold Token.initToken
  have a : (if t.isInitialized then t.authUser C (e.sub 0) .so pin true else (.ok (), t)).2.sess = t.sess := by
    split
    · exact (authUser_hs _ _ _ _ _).1
    · rfl
  generalize (if t.isInitialized then t.authUser C (e.sub 0) .so pin true else (.ok (), t)) = p at a ⊢
  obtain ⟨r, t1⟩ := p
  cases r with
  | error r => exact h.eq a
  | ok _ =>
    simp only
    generalize t1.store.reinit C (e.sub 1) = q
    obtain ⟨r, st⟩ := q
    cases r with
    | error r => exact hn _ rfl
    | ok info =>
      simp only
      have b := (setPin_hs (C := C) (e.sub 2)
        { info := t1.info, handles := Handles.new, store := st, sess := [], logged := none, cfg := t1.cfg }
        (some User.so) pin []).1
      generalize Token.setPin C (e.sub 2) _ (some User.so) pin [] = w at b ⊢
      obtain ⟨r, t2⟩ := w
      have z2 : t2.sess = [] := b
      simp only
      split
      · exact hn _ z2
      · split
        · exact hn _ z2
        · split
          · exact hn _ z2
          · exact orderly_internalInit (hn _ z2)

theorem orderly_act {k : Nat} {D : Nat → Prop} {N : Obj → Prop} {a b : Token} (hN : ∀ o, N o → Orderly o)
    (x : TAct C Z k D N a b) (h : AllOrderly a) : AllOrderly b := by
  cases x with
  | insert e o t hz hn => exact orderly_insert e k (hN o hn) h
  | destroy e n t hd =>
    refine h.sub fun m o ho => ?_
    unfold Token.destroyObject at ho
    repeat' split at ho
    all_goals first
      | exact ho
      | (simp only [AMap.get_erase] at ho
         split at ho
         · cases ho
         · exact ho)
  | setAttrs e n tm t =>
    unfold Token.setObjectAttrs
    split
    · rename_i o ho
      split
      · exact h
      · rename_i F hF
        intro m o' hm
        simp only [AMap.get_modify] at hm
        split at hm
        · rename_i e
          rw [← e, ho] at hm
          injection hm with hm
          rw [← hm]
          have := h n o ho
          unfold setObjectAttributes
          repeat' split
          all_goals first | exact this | exact orderly_applyTemplate this
        · exact h m o' hm
    · repeat' split
      all_goals exact h.eq rfl
  | search e tm t => exact h.eq rfl
  | update e n tm t hl hu hdd => exact h.eq rfl
  | initPin e pin t =>
    unfold fnInitPin
    split
    · exact h
    · exact h.eq (setPin_hs _ _ _ _ _).1
  | changePin e s old new t hp hd =>
    refine h.sub fun m o ho => ?_
    unfold fnSetPin at ho
    split at ho
    · exact ho
    split at ho
    · exact ho
    split at ho
    · exact ho
    split at ho
    · rw [(setPin_hs _ _ _ _ _).1] at ho; exact ho
    · have a' := (login_hs (C := C) (e.sub 0) a CKU_USER old).1
      generalize a.login C (e.sub 0) CKU_USER old = p at a' ho
      obtain ⟨r, t1⟩ := p
      cases r with
      | error r => simp only at ho a'; rw [a'] at ho; exact ho
      | ok _ =>
        simp only at ho a'
        have c := (setPin_hs (C := C) (e.sub 1) t1 none new old).1
        generalize t1.setPin C (e.sub 1) none new old = q at c ho
        obtain ⟨r, t2⟩ := q
        simp only at c ho
        have := logout_sub _ _ _ _ ho
        rw [c, a'] at this
        exact this

theorem orderly_prim {k : Nat} {D : Nat → Prop} {N : Obj → Prop} {I : Prop} {a b : Token} (hN : ∀ o, N o → Orderly o)
    (x : TPrim C k D N I W a b) (h : AllOrderly a) : AllOrderly b := by
  cases x with
  | act x => exact orderly_act hN x h
  | login e ut pin => exact h.eq (login_hs _ _ _ _).1
  | logout e t hd => exact h.sub fun n o ho => logout_sub _ _ _ _ ho
  | drop s t hd => exact h.sub fun n o ho => drop_sub _ _ _ _ ho
  | initTok e pin l t hi => exact orderly_initToken h

/-! ## The machine -/

variable {M : Mechs} {O : Oracle}

theorem keyTemplateFactory_mem {tm : Template} {F : Factory} (h : keyTemplateFactory tm = .ok F) :
    ∃ k, (k, F) ∈ registry := by
  unfold keyTemplateFactory at h
  repeat' split at h
  all_goals first | (cases h; done) | exact ⟨_, getFactory_mem h⟩

theorem orderly_made (hM : OrderlyMechs M) {e : Env} {sl : Slot} {c : Call} {o : Obj} (ht : TblOk sl.token.store.db.objs)
    (h : AllOrderly sl.token) (m : MadeBy M C O e sl c o) : Orderly o := by
  cases m with
  | sess hx m =>
    cases m with
    | create p hr ho => exact orderly_create ho
    | copy e' p hr hs ho =>
      refine orderly_copy ho ?_
      rcases hs with hs | hs
      · exact h _ _ hs
      · exact orderly_fetch ht hs
  | op hx m =>
    cases m with
    | genKey e' hr ho => exact orderly_fresh (hM.genKey _ _ _ _ _ ho)
    | genPub e' hr' hr ho => exact orderly_fresh (hM.genPair _ _ _ _ _ _ _ ho).1
    | genPriv e' hr' hr ho => exact orderly_fresh (hM.genPair _ _ _ _ _ _ _ ho).2
    | derive e' hr ho hm => exact orderly_fresh (hM.derive _ _ _ _ _ _ _ ho _ hm)
    | unwrap p hr hF ho =>
      obtain ⟨k, hF⟩ := keyTemplateFactory_mem hF
      exact orderly_fresh (orderly_import hM hF ho)
    | encap p hr hF ho =>
      obtain ⟨k, hF⟩ := keyTemplateFactory_mem hF
      exact orderly_fresh (orderly_import hM hF ho)
    | decap p hr hF ho =>
      obtain ⟨k, hF⟩ := keyTemplateFactory_mem hF
      exact orderly_fresh (orderly_import hM hF ho)

/-- All objects in memory, of all slots. -/
def OInv (s : St) : Prop := ∀ i sl, AMap.get s.slots i = some sl → AllOrderly sl.token

theorem oinv_step (hM : OrderlyMechs M) (e : Env) (s : St) (c : Call) (hi : Inv s) (ht : TInv s) (ho : OInv s) :
    OInv (step M C O e s c).2 := by
  intro i sl' hs'
  have fin : ∀ {d}, AMap.get (St.mk [] [] 0 d).slots i ≠ some sl' := fun h => by cases h
  by_cases h1 : c = .finalize
  · subst h1
    simp only [step, fnFinalize] at hs'
    split at hs'
    · exact ho i sl' hs'
    · exact absurd hs' fin
  by_cases h2 : c = .crash
  · subst h2; exact absurd hs' fin
  cases hs : AMap.get s.slots i with
  | some sl =>
    obtain ⟨sl2, hs2, p⟩ := step_path (M := M) (O := O) (e := e) hi hs h1 h2
    rw [hs2] at hs'; injection hs' with hs'; subst hs'
    exact TPath.inv (fun _ _ x h => orderly_prim (fun o m => orderly_made hM (ht.slots i sl hs) (ho i sl hs) m) x h) p (ho i sl hs)
  | none =>
    obtain ⟨e', cfg, conf, _, _, _, hnew⟩ := step_new hs hs'
    exact orderly_token hnew

theorem oinv_run (hM : OrderlyMechs M) (tr : Trace) (s : St) (hi : Inv s) (ht : TInv s) (ho : OInv s) :
    OInv (run M C O s tr) := by
  induction tr generalizing s with
  | nil => exact ho
  | cons p tr ih =>
    exact ih _ (inv_step M O p.1 s p.2 hi) (tinv_step M O p.1 s p.2 hi ht) (oinv_step hM p.1 s p.2 hi ht ho)

theorem oinv_reach (hM : OrderlyMechs M) {d : List (Nat × Db)} (h : ∀ p ∈ d, TblOk p.2.objs) (tr : Trace) :
    OInv (run M C O (St.init d) tr) :=
  oinv_run hM tr _ (inv_empty d 0) (tinv_init h) (fun i sl hs => by cases hs)

end

/-- Boolean attributes of objects in memory are booleans. -/
theorem OInv.proper {s : St} (ho : OInv s) (i n : Nat) {ty : Nat} (hk : attrKind ty = some .bool) : proper s i n ty := by
  intro o a hs hf
  unfold sessionObj at hs
  split at hs
  · cases hs
  · rename_i sl hsl
    have := (ho i sl hsl n o hs).neat a (find_mem hf)
    rw [← find_typ hf] at hk
    obtain ⟨b, hb⟩ := this.1 hk
    rw [hb]; rfl

end Kry
