import Verif.Proofs.NssSeal
import Verif.Proofs.Sealed

/-!
# C68: what is stored in an NSS database is read back

-/

namespace Kry

open Spec (calmEnv NssOk fits drawn saltsApart sealedIn nssStorable restarted)

variable {N : NssLib}

/-! ## The columns asked for -/

theorem dropType_types {t t' : Template} {ty : Nat} (h : nssDropType t ty = .ok t') (u : Nat) :
    (u ∈ t'.map CkAttr.typ → u ∈ t.map CkAttr.typ) ∧ (u ≠ ty → u ∈ t.map CkAttr.typ → u ∈ t'.map CkAttr.typ) := by
  have er : ∀ t : Template, (u ∈ (t.eraseP fun c => c.typ == ty).map CkAttr.typ → u ∈ t.map CkAttr.typ) ∧
      (u ≠ ty → u ∈ t.map CkAttr.typ → u ∈ (t.eraseP fun c => c.typ == ty).map CkAttr.typ) := by
    intro t
    constructor
    · intro h
      obtain ⟨c, hc, rfl⟩ := List.mem_map.1 h
      exact List.mem_map.2 ⟨c, List.mem_of_mem_eraseP hc, rfl⟩
    · intro hne h
      obtain ⟨c, hc, rfl⟩ := List.mem_map.1 h
      exact List.mem_map.2 ⟨c, (List.mem_eraseP_of_neg (by simpa using hne)).2 hc, rfl⟩
  unfold nssDropType at h
  split at h
  · injection h with h; subst h; exact ⟨id, fun _ => id⟩
  · split at h
    · cases h
    · injection h with h; subst h; exact er t

theorem dropTypes_types {ts : List Nat} {t t' : Template} (h : nssDropTypes ts t = .ok t') (u : Nat) :
    (u ∈ t'.map CkAttr.typ → u ∈ t.map CkAttr.typ) ∧ (u ∉ ts → u ∈ t.map CkAttr.typ → u ∈ t'.map CkAttr.typ) := by
  induction ts generalizing t with
  | nil => injection h with h; subst h; exact ⟨id, fun _ => id⟩
  | cons ty ts ih =>
    rw [nssDropTypes] at h
    split at h
    · cases h
    · rename_i t1 h1
      obtain ⟨a, b⟩ := ih h
      obtain ⟨c, d⟩ := dropType_types h1 u
      exact ⟨fun x => c (a x), fun hn x => b (fun hm => hn (.tail _ hm)) (d (fun he => hn (by rw [he]; exact .head _)) x)⟩

theorem addMissing_types (t : Template) (ty v u : Nat) : u ∈ (t.addMissingUlong ty v).map CkAttr.typ ↔ u = ty ∨ u ∈ t.map CkAttr.typ := by
  unfold Template.addMissingUlong
  cases h : Template.findA t ty with
  | none => simp [CkAttr.ofUlong, or_comm]
  | some c =>
    unfold Template.findA at h
    have h1 := List.mem_of_find?_eq_some h
    have h2 := List.find?_some h
    simp only
    constructor
    · exact .inr
    · intro hx
      rcases hx with hx | hx
      · subst hx
        exact List.mem_map.2 ⟨c, h1, by simpa using h2⟩
      · exact hx

/-- The columns that are read: those asked for and five more. -/
theorem nssHints_types {attrs : Template} {cols : List Nat} (h : nssHints attrs = .ok cols) (hne : attrs ≠ []) (u : Nat) :
    (u ∈ cols → u ∈ [CKA_CLASS, CKA_KEY_TYPE, CKA_CERTIFICATE_TYPE, CKA_EXTRACTABLE, CKA_SENSITIVE] ∨ u ∈ attrs.map CkAttr.typ) ∧
    (nssSkippable u = false → nssKnown u = true →
      u ∈ [CKA_CLASS, CKA_KEY_TYPE, CKA_CERTIFICATE_TYPE, CKA_EXTRACTABLE, CKA_SENSITIVE] ∨ u ∈ attrs.map CkAttr.typ → u ∈ cols) := by
  unfold nssHints at h
  rw [if_neg hne] at h
  simp only at h
  split at h
  · cases h
  rename_i t1 h1
  split at h
  · cases h
  rename_i t2 h2
  injection h with h; subst h
  obtain ⟨a1, b1⟩ := dropTypes_types h1 u
  obtain ⟨a2, b2⟩ := dropTypes_types h2 u
  have hf : u ∈ ([CKA_CLASS, CKA_KEY_TYPE, CKA_CERTIFICATE_TYPE, CKA_EXTRACTABLE, CKA_SENSITIVE].foldl (fun t ty => t.addMissingUlong ty 0) attrs).map CkAttr.typ ↔
      u ∈ [CKA_CLASS, CKA_KEY_TYPE, CKA_CERTIFICATE_TYPE, CKA_EXTRACTABLE, CKA_SENSITIVE] ∨ u ∈ attrs.map CkAttr.typ := by
    simp only [List.foldl_cons, List.foldl_nil, addMissing_types, List.mem_cons, List.not_mem_nil, or_false]
    generalize (u ∈ attrs.map CkAttr.typ) = Q
    constructor
    · intro h; rcases h with h | h | h | h | h | h <;> simp [h]
    · intro h; rcases h with (h | h | h | h | h) | h <;> simp [h]
  refine ⟨fun x => hf.1 (a1 (a2 x)), fun hs hk x => b2 ?_ (b1 ?_ (hf.2 x))⟩
  · intro hm
    have := (List.mem_filter.1 hm).2
    simp [hk] at this
  · intro hm
    unfold nssSkipped at hm
    have hall : ∀ t ∈ nssSkipped, nssSkippable t = true := by decide +kernel
    rw [hall u hm] at hs
    cases hs

theorem addBack_ok (asked : List Nat) : ∀ (ts : List Nat) (o : Obj) (F : Factory), (∀ t ∈ ts, t ∉ kindTypes) → objFactory o = .ok F →
    ∃ o', nssAddBack asked ts o = .ok o' ∧ ∀ t, t ∉ ts → o'.find t = o.find t := by
  intro ts
  induction ts with
  | nil => intro o F _ _; exact ⟨o, rfl, fun _ _ => rfl⟩
  | cons u ts ih =>
    intro o F hk hF
    have hk' : ∀ t ∈ ts, t ∉ kindTypes := fun t ht => hk t (.tail _ ht)
    have keep := ih o F hk' hF
    have hu := hk u (.head _)
    rw [nssAddBack]
    simp only [hF]
    obtain ⟨x, hx, hxf⟩ := keep
    split
    · split
      · rename_i fa hfa
        split
        · have hty : fa.attr.typ = u := by simpa [FAttr.typ] using List.find?_some hfa
          have hset : o.setAttr fa.attr = .ok { o with attrs := Obj.setList o.attrs fa.attr } := by
            unfold Obj.setAttr
            exact if_neg (by rw [hty]; intro he; exact hu (by rw [he]; decide))
          have hfs := find_setAttr hset
          have hsame : ∀ t ∈ kindTypes, ({ o with attrs := Obj.setList o.attrs fa.attr } : Obj).find t = o.find t := by
            intro t ht
            rw [hfs, if_neg (by rw [hty]; intro he; exact hu (by rw [he]; exact ht))]
          have hF' : objFactory { o with attrs := Obj.setList o.attrs fa.attr } = .ok F := by
            rw [objFactory_congr (hsame _ (by decide)) (hsame _ (by decide)) (hsame _ (by decide)), hF]
          obtain ⟨y, hy, hyf⟩ := ih _ F hk' hF'
          simp only [hset]
          refine ⟨y, hy, fun t ht => ?_⟩
          rw [hyf t (fun hm => ht (.tail _ hm)), hfs, if_neg (by rw [hty]; intro he; exact ht (by rw [he]; exact .head _))]
        · exact ⟨x, hx, fun t ht => hxf t (fun hm => ht (.tail _ hm))⟩
      · exact ⟨x, hx, fun t ht => hxf t (fun hm => ht (.tail _ hm))⟩
    · exact ⟨x, hx, fun t ht => hxf t (fun hm => ht (.tail _ hm))⟩

/-- The types that are encrypted in a table. -/
def nssSecretsOf (t : NssTbl) : List Nat := if t = .priv then nssSecrets else []

theorem secretsOf_nodup (t : NssTbl) : (nssSecretsOf t).Nodup := by
  unfold nssSecretsOf
  split
  · exact nssSecrets_nodup
  · exact List.nodup_nil

theorem secretsOf_facts (t : NssTbl) : ∀ u ∈ nssSecretsOf t, u ∉ kindTypes ∧ attrKind u = some .bytes ∧ u ∉ nssSigned ∧ nssSensitive u = true := by
  have : ∀ u ∈ nssSecrets, u ∉ kindTypes ∧ attrKind u = some .bytes ∧ u ∉ nssSigned ∧ nssSensitive u = true := by decide +kernel
  intro u hu
  unfold nssSecretsOf at hu
  split at hu
  · exact this u hu
  · cases hu

theorem secretsOf_len (t : NssTbl) : (nssSecretsOf t).length ≤ 8 := by
  have : nssSecrets.length = 8 := by decide +kernel
  unfold nssSecretsOf
  split
  · omega
  · simp

theorem nssSigned_nodup : nssSigned.Nodup := by decide +kernel

theorem nssSigned_len : nssSigned.length = 19 := by decide +kernel

/-- What a successful store did. -/
theorem nssStore_parts {e : Env} (he : calmEnv e) (ap : saltsApart e) {m : Bytes} {s s' : Nss} {hs h' : Handles} {o : Obj} {n : Nat}
    (hf : fits N m (drawn e) s.keys) (h : s.store N e hs o = (.ok n, s', h')) :
    ∃ (cls : Nat) (t : NssTbl) (F : Factory) (id : Nat) (o1 : Obj) (row : NssRow), o.getUlong CKA_CLASS = .ok cls ∧ nssTblOf cls = some t ∧ objFactory o = .ok F ∧ nssNextId (s.db.rows t) = .ok id ∧
      nssMakeRow o1.attrs = .ok row ∧ (∀ p ∈ row, p.1 ∈ nssCols) ∧ s'.db.rows t = s.db.rows t ++ [(id, row)] ∧
      h'.get n = some (nssIdFormat t id) ∧ fits N m (drawn e) s'.keys ∧
      (∀ u, u ∉ nssSecretsOf t → o1.find u = (delAll o F.ephemeral).find u) ∧
      (∀ u, (delAll o F.ephemeral).find u = none → o1.find u = none) ∧
      (∀ u ∈ nssSecretsOf t, ∀ a, (delAll o F.ephemeral).find u = some a → ∃ salt iv, drawn e .enc salt ∧ salt.length = 32 ∧ iv.length = 14 ∧
        o1.find u = some (Attr.ofBytes u (nssBlob N m salt iv a.value))) ∧
      (∀ u ∈ nssSigned, ∀ a, o1.find u = some a → ∃ salt, drawn e .sig salt ∧ salt.length = 32 ∧
        AMap.get s'.db.mdata (.sig t id u) = some (nssSigBlob N m salt id u a.value, [])) := by
  unfold Nss.store at h
  split at h
  · cases h
  rename_i cls hcls
  split at h
  · cases h
  rename_i t ht
  rw [if_neg (by rw [hf.1]; simp)] at h
  split at h
  · cases h
  rename_i F hF
  obtain ⟨o1, k1, h1, h2, h3, h4, h5⟩ := encLoop_ok (N := N) ap (calm_sub he 0) (nssSecretsOf t) 0 s.keys (delAll o F.ephemeral) (secretsOf_nodup t)
    (fun u hu hc => (secretsOf_facts t u hu).1 (by rw [hc]; decide)) hf
    (fun j _ hj => ⟨j, by have := secretsOf_len t; omega, rfl⟩)
  rw [show (if t = .priv then nssSecrets else []) = nssSecretsOf t from rfl, h1] at h
  simp only at h
  have key : ∀ r, nssStoreTx N (e.sub 1) s.db k1 t o1 = r → ∀ id d k, r = (.ok (id, d), k) →
      ∃ row, nssNextId (s.db.rows t) = .ok id ∧ nssMakeRow o1.attrs = .ok row ∧ (∀ p ∈ row, p.1 ∈ nssCols) ∧ d.rows t = s.db.rows t ++ [(id, row)] ∧
        fits N m (drawn e) k ∧
        (∀ u ∈ nssSigned, ∀ a, o1.find u = some a → ∃ salt, drawn e .sig salt ∧ salt.length = 32 ∧
          AMap.get d.mdata (.sig t id u) = some (nssSigBlob N m salt id u a.value, [])) := by
    intro r hr id d k hrk
    subst hrk
    unfold nssStoreTx at hr
    simp only [calm_fails (calm_sub (calm_sub he 1) 0)] at hr
    split at hr
    · cases hr
    rename_i id1 d1 hso
    have hso' : ∃ row, nssNextId (s.db.rows t) = .ok id1 ∧ nssMakeRow o1.attrs = .ok row ∧ (∀ p ∈ row, p.1 ∈ nssCols) ∧
        d1 = s.db.setRows t (s.db.rows t ++ [(id1, row)]) := by
      unfold NssDb.storeObject at hso
      split at hso
      · cases hso
      rename_i id2 hid
      split at hso
      · cases hso
      rename_i row hrow
      split at hso
      · cases hso
      rename_i hall
      split at hso
      · cases hso
      injection hso with hso
      injection hso with ha hb
      subst ha; subst hb
      refine ⟨row, hid, hrow, fun p hp => ?_, rfl⟩
      simp only [List.any_eq_true, not_exists, not_and] at hall
      have := hall p hp
      simpa using this
    obtain ⟨row, hid, hrow, hcols, hd1⟩ := hso'
    obtain ⟨d2, k2, g1, g2, g3, g4, _, g6⟩ := sigLoop_ok (N := N) ap (calm_sub (calm_sub he 1) 2) t id1 (fun ty => (o1.find ty).map Attr.value) nssSigned 0 k1 d1
      nssSigned_nodup h2 (fun j _ hj => ⟨j, by have := nssSigned_len; omega, rfl⟩)
    rw [g1] at hr
    simp only [calm_fails (calm_sub (calm_sub he 1) 3)] at hr
    injection hr with ha hb
    injection ha with ha
    injection ha with ha hc
    subst ha; subst hb; subst hc
    refine ⟨row, hid, hrow, hcols, ?_, g2, fun u hu a ha => ?_⟩
    · rw [hd1] at g3 g4
      cases t
      · exact g3
      · exact g4
    · exact g6 u hu a.value (by rw [ha]; rfl)
  generalize hx : nssStoreTx N (e.sub 1) s.db k1 t o1 = x at h key
  obtain ⟨r, k2⟩ := x
  cases r with
  | error r => cases h
  | ok v =>
    obtain ⟨id, d⟩ := v
    obtain ⟨row, a1, a2, a3, a4, a5, a6⟩ := key _ rfl id d k2 rfl
    simp only at h
    unfold Handles.insert at h
    split at h
    · rename_i hins
      split at hins
      · cases h
      · cases hins
    · rename_i hins
      split at hins
      · cases hins
      rename_i hno
      injection hins with _ hins
      injection h with hn h
      injection h with hs' hh'
      injection hn with hn
      subst hs'; subst hn; subst hins; subst hh'
      refine ⟨cls, t, F, id, o1, row, hcls, ht, hF, a1, a2, a3, a4, ?_, a5, h3, h4, h5, a6⟩
      have hnone : AMap.get hs.map hs.next = none := by
        simp only [Bool.or_eq_true, not_or] at hno
        simpa [Handles.get, Handles.bump] using hno.1
      show AMap.get (hs.map ++ [(hs.next, nssIdFormat t id)]) hs.next = _
      rw [AMap.get_append, hnone]
      simp [AMap.get]

theorem sensitive_mem {u : Nat} (h : nssSensitive u = true) : u ∈ nssSecrets := by
  unfold nssSensitive nssInfoOf at h
  split at h
  · rename_i a ha
    have h1 := List.mem_of_find?_eq_some ha
    have h2 := List.find?_some ha
    exact List.mem_map.2 ⟨a, List.mem_filter.2 ⟨h1, h⟩, by simpa using h2⟩
  · cases h

theorem amap_get_mem {κ α : Type} [DecidableEq κ] {m : List (κ × α)} {x : κ} {v : α} (h : AMap.get m x = some v) : (x, v) ∈ m := by
  induction m with
  | nil => cases h
  | cons p m ih =>
    obtain ⟨a, b⟩ := p
    rw [AMap.get] at h
    split at h
    · rename_i hx
      subst hx
      injection h with h; subst h
      exact .head _
    · exact .tail _ (ih h)

theorem nssCols_facts : (∀ u ∈ nssCols, nssSkippable u = false ∧ nssKnown u = true ∧ (nssIgnored u = true → attrKind u = none)) ∧
    (∀ u ∈ kindTypes, u ∈ nssCols ∧ nssIgnored u = false) ∧ (∀ u ∈ nssSkipped, u ∉ kindTypes ∧ nssSkippable u = true) := by
  decide +kernel

/-- Reading back what a store left, in a state with the same database and the same master key. -/
theorem nssFetch_back (hN : NssOk N) {e e' : Env} (he : calmEnv e) (he' : calmEnv e') (ap : saltsApart e) {m : Bytes} {s s' s2 : Nss} {hs h' : Handles} {o : Obj}
    {n cls : Nat} (hf : fits N m (drawn e) s.keys) (h : s.store N e hs o = (.ok n, s', h')) (hcl : o.getUlong CKA_CLASS = .ok cls)
    (hsto : ∀ t a, o.find t = some a → nssSkippable t = true ∨ nssStorable (sealedIn cls) a)
    (hdb : s2.db = s'.db) (hf2 : fits N m (drawn e) s2.keys) {attrs : Template} {cols : List Nat} (hc : nssHints attrs = .ok cols)
    (hcols : ∀ c ∈ cols, c ∈ nssCols) :
    ∃ o' k, s2.fetch N e' h' n attrs = (.ok o', { s2 with keys := k }) ∧ fits N m (drawn e) k ∧ o'.handle = n ∧
      (∀ u, nssSkippable u = false → u ≠ CKA_OBJECT_VALIDATION_FLAGS → attrs = [] ∨ u ∈ attrs.map CkAttr.typ → o'.find u = o.find u) := by
  obtain ⟨cls', t, F, id, o1, row, hcl', htbl, hF, hid, hrow, hrc, hrows, hget, hf1, e1, e2, e3, sg⟩ := nssStore_parts he ap hf h
  rw [hcl] at hcl'
  injection hcl' with hcl'; subst hcl'
  -- the columns read
  obtain ⟨cf1, cf2, cf3⟩ := nssCols_facts
  generalize hC : (if cols = [] then nssCols else cols) = C
  have hCsub : ∀ c ∈ C, c ∈ nssCols := by
    rw [← hC]
    split
    · exact fun _ hc => hc
    · exact hcols
  have hCkind : ∀ c ∈ kindTypes, c ∈ C := by
    intro c hck
    rw [← hC]
    split
    · exact (cf2 c hck).1
    · by_cases hne : attrs = []
      · rename_i hcne
        subst hne
        unfold nssHints at hc
        injection hc with hc
        exact absurd hc.symm hcne
      · have hk := cf1 c (cf2 c hck).1
        refine (nssHints_types hc hne c).2 hk.1 hk.2.1 (.inl ?_)
        have : ∀ c ∈ kindTypes, c ∈ [CKA_CLASS, CKA_KEY_TYPE, CKA_CERTIFICATE_TYPE, CKA_EXTRACTABLE, CKA_SENSITIVE] := by decide
        exact this c hck
  have hCask : ∀ u, nssSkippable u = false → attrs = [] ∨ u ∈ attrs.map CkAttr.typ → u ∈ C ∨ u ∉ nssCols := by
    intro u hsk hu
    by_cases hun : u ∈ nssCols
    · left
      rw [← hC]
      by_cases hne : attrs = []
      · subst hne
        unfold nssHints at hc
        injection hc with hc
        rw [if_pos hc.symm]
        exact hun
      · have hu := hu.resolve_left hne
        have hm := (nssHints_types hc hne u).2 hsk (cf1 u hun).2.1 (.inr hu)
        rw [if_neg (by intro hx; rw [hx] at hm; cases hm)]
        exact hm
    · exact .inr hun
  -- the object before encryption
  have hP : ∀ u, (delAll o F.ephemeral).find u = if u ∈ F.ephemeral then none else o.find u := find_delAll _ _
  have hPo : ∀ u a, (delAll o F.ephemeral).find u = some a → o.find u = some a := by
    intro u a ha
    rw [hP] at ha
    split at ha
    · cases ha
    · exact ha
  have hPk : ∀ u ∈ kindTypes, (delAll o F.ephemeral).find u = o.find u := by
    intro u hu
    rw [hP, if_neg (kind_kept hF hu).2.1]
  have hkind1 : ∀ u ∈ kindTypes, u ∉ nssSecretsOf t := fun u hu hx => (secretsOf_facts t u hx).1 hu
  -- the row
  have hrg : ∀ u, nssSkippable u = false → (o1.find u = none ∧ AMap.get row u = none) ∨ ∃ a v, o1.find u = some a ∧ nssColVal a = .ok v ∧ AMap.get row u = some v := by
    intro u hsk
    obtain ⟨_, r2, r3⟩ := nssMakeRow_get hrow u
    cases hx : o1.find u with
    | none => exact .inl ⟨rfl, r2 hx⟩
    | some a =>
      obtain ⟨v, hv, hg⟩ := r3 hsk a hx
      exact .inr ⟨a, v, rfl, hv, hg⟩
  have hinC : ∀ u a, nssSkippable u = false → (delAll o F.ephemeral).find u = some a → u ∈ nssCols := by
    intro u a hsk ha
    have : ∃ b, o1.find u = some b := by
      by_cases hu : u ∈ nssSecretsOf t
      · obtain ⟨salt, iv, _, _, _, hb⟩ := e3 u hu a ha
        exact ⟨_, hb⟩
      · exact ⟨a, by rw [e1 u hu, ha]⟩
    obtain ⟨b, hb⟩ := this
    rcases hrg u hsk with ⟨hx, _⟩ | ⟨_, v, _, _, hg⟩
    · rw [hb] at hx; cases hx
    · exact hrc _ (amap_get_mem hg)
  have hseal : ∀ u, u ∉ nssSecretsOf t → sealedIn cls u = false := by
    intro u hu
    cases hx : sealedIn cls u with
    | false => rfl
    | true =>
      unfold sealedIn at hx
      simp only [Bool.and_eq_true, Bool.or_eq_true, beq_iff_eq] at hx
      have ht : t = .priv := by
        unfold nssTblOf at htbl
        rw [if_pos hx.1] at htbl
        injection htbl with htbl; exact htbl.symm
      exact absurd (by unfold nssSecretsOf; rw [if_pos ht]; exact sensitive_mem hx.2) hu
  have hclass : ∃ a, o.find CKA_CLASS = some a ∧ a.toUlong = .ok cls := by
    unfold Obj.getUlong at hcl
    split at hcl
    · cases hcl
    · rename_i a ha; exact ⟨a, ha, hcl⟩
  obtain ⟨ca, hca, hcu⟩ := hclass
  have hclass1 : o1.find CKA_CLASS = some ca := by
    rw [e1 _ (hkind1 _ (by decide)), hPk _ (by decide), hca]
  have hread : ∀ c ∈ C, nssIgnored c = false → ∀ b, AMap.get row c = some b →
      ∃ a, o1.find c = some a ∧ nssReadCol c b = .ok a ∧ a.typ = c ∧ (c = CKA_CLASS → ∃ n, a.toUlong = .ok n) := by
    intro c hcC hig b hb
    have hsk := (cf1 c (hCsub c hcC)).1
    rcases hrg c hsk with ⟨_, hx⟩ | ⟨a, v, ha, hv, hg⟩
    · rw [hb] at hx; cases hx
    · rw [hb] at hg
      injection hg with hg; subst hg
      have hty := find_typ ha
      refine ⟨a, ha, ?_, hty, ?_⟩
      · by_cases hu : c ∈ nssSecretsOf t
        · cases hp : (delAll o F.ephemeral).find c with
          | none => rw [e2 c hp] at ha; cases ha
          | some a0 =>
            obtain ⟨salt, iv, _, _, _, hb'⟩ := e3 c hu a0 hp
            rw [ha] at hb'
            injection hb' with hb'
            have hst : nssStorable (fun _ => false) a := by
              subst hb'
              refine ⟨(secretsOf_facts t c hu).2.1, ?_⟩
              intro hx
              have hx : N.der _ = _ := hx
              have hl := hN.der_long ⟨.pbes2 (some ⟨salt, 10000, some 32⟩) (some iv), N.enc (N.kdf m salt 10000 32) (4 :: 14 :: iv) a0.value⟩
              rw [hx] at hl
              exact absurd hl (by decide)
            have := nssStorable_read hst rfl hv
            rw [hty] at this
            exact this
        · have hoa := hPo c a (by rw [← e1 c hu]; exact ha)
          rcases hsto c a hoa with hx | hx
          · rw [hsk] at hx; cases hx
          · have := nssStorable_read hx (by rw [hty]; exact hseal c hu) hv
            rw [hty] at this
            exact this
      · intro hx
        subst hx
        rw [hclass1] at ha
        injection ha with ha; subst ha
        exact ⟨cls, hcu⟩
  obtain ⟨o2, r1, r2, r3⟩ := nssReadCols_ok row (fun u => o1.find u) C (Obj.new CK_UNAVAILABLE_INFORMATION) (clsOk_new _ (by decide)) hread
  have hnew : ∀ u, u ≠ CKA_CLASS → (Obj.new CK_UNAVAILABLE_INFORMATION).find u = none := by
    intro u hu
    unfold Obj.new Obj.find
    rw [List.find?_cons_of_neg (by simpa [Attr.ofUlong] using fun h => hu h.symm)]
    rfl
  have ho2 : ∀ u, o2.find u = if u ∈ C then o1.find u else none := by
    intro u
    rw [r3]
    by_cases hu : u ∈ C
    · rw [if_pos hu]
      have hsk := (cf1 u (hCsub u hu)).1
      cases hi : nssIgnored u with
      | true =>
        have hne : u ≠ CKA_CLASS := by
          intro hx; subst hx
          rw [(cf2 _ (by decide)).2] at hi; cases hi
        rw [if_neg (by simp), hnew u hne]
        cases hx : o1.find u with
        | none => rfl
        | some a =>
          have hkn := (cf1 u (hCsub u hu)).2.2 hi
          by_cases hus : u ∈ nssSecretsOf t
          · rw [(secretsOf_facts t u hus).2.1] at hkn; cases hkn
          · have hoa := hPo u a (by rw [← e1 u hus]; exact hx)
            rcases hsto u a hoa with hy | hy
            · rw [hsk] at hy; cases hy
            · have := hy.1
              rw [find_typ hoa, hkn] at this
              cases this
      | false =>
        rcases hrg u hsk with ⟨hx, hg⟩ | ⟨a, v, ha, _, hg⟩
        · have hne : u ≠ CKA_CLASS := by
            intro hx'; subst hx'
            rw [hclass1] at hx; cases hx
          rw [if_neg (by simp [hg]), hnew u hne, hx]
        · rw [if_pos ⟨hu, rfl, by rw [hg]; rfl⟩]
    · rw [if_neg (fun hx => hu hx.1), if_neg hu]
      exact hnew u (fun hx => hu (by rw [hx]; exact hCkind _ (by decide)))
  have hcls2 : o2.cls = cls := by
    obtain ⟨a, ha, hu⟩ := r2
    rw [ho2, if_pos (hCkind _ (by decide)), hclass1] at ha
    injection ha with ha; subst ha
    rw [hcu] at hu
    injection hu with hu; exact hu.symm
  have hby : s2.db.fetchById (e'.sub 0) t id cols = .ok o2 := by
    unfold NssDb.fetchById
    rw [if_neg (by
      simp only [List.any_eq_true, not_exists, not_and]
      intro c hcc
      simpa using hcols c hcc)]
    simp only [calm_fails (calm_sub he' 0)]
    have hgr : AMap.get (s2.db.rows t) id = some row := by
      rw [hdb, hrows, AMap.get_append, (nssNextId_ok _ _ hid).1]
      simp [AMap.get]
    rw [hgr, hC]
    unfold nssRowObj
    simp only [r1]
    rw [if_neg]
    rw [hcls2]
    intro hx
    subst hx
    rw [show nssTblOf CK_UNAVAILABLE_INFORMATION = none from by decide] at htbl
    cases htbl
  -- decryption
  obtain ⟨o3, k3, d1, d2, d3, d4⟩ := decLoop_ok hN ap (calm_sub he' 1) (m := m) (fun u => match (delAll o F.ephemeral).find u with
    | some a => a.value
    | none => []) (nssSecretsOf t) 0 s2.keys o2 (secretsOf_nodup t) (fun u hu hc => (secretsOf_facts t u hu).1 (by rw [hc]; decide)) hf2 r2 (by
      intro u hu b hb
      rw [ho2] at hb
      split at hb
      · cases hp : (delAll o F.ephemeral).find u with
        | none => rw [e2 u hp] at hb; cases hb
        | some a =>
          obtain ⟨salt, iv, q1, q2, q3, q4⟩ := e3 u hu a hp
          rw [q4] at hb
          injection hb with hb
          subst hb
          exact ⟨salt, iv, q1, q2, q3, rfl⟩
      · cases hb)
  have ho3 : ∀ u, o3.find u = if u ∈ C then (delAll o F.ephemeral).find u else none := by
    intro u
    rw [d4, ho2]
    by_cases hu : u ∈ C
    · simp only [if_pos hu]
      by_cases hus : u ∈ nssSecretsOf t
      · cases hp : (delAll o F.ephemeral).find u with
        | none => simp [e2 u hp]
        | some a =>
          obtain ⟨salt, iv, _, _, _, q4⟩ := e3 u hus a hp
          rw [if_pos ⟨hus, by rw [q4]; rfl⟩]
          simp only
          have hoa := hPo u a hp
          have hkd : a.atype = .bytes := by
            rcases hsto u a hoa with hy | hy
            · rw [(cf1 u (hCsub u hu)).1] at hy; cases hy
            · have := hy.1
              rw [find_typ hoa, (secretsOf_facts t u hus).2.1] at this
              injection this with this; exact this.symm
          have hta := find_typ hoa
          obtain ⟨ty, k, v⟩ := a
          simp only at hkd hta
          subst hkd; subst hta
          rfl
      · rw [if_neg (fun hx => hus hx.1), e1 u hus]
    · simp [hu]
  -- signatures
  obtain ⟨k4, v1, v2⟩ := verLoop_ok hN ap (calm_sub he' 2) (m := m) s2.db t id o3 nssSigned 0 k3 d2 (by
    intro u hu a ha
    rw [ho3] at ha
    split at ha
    · have hus : u ∉ nssSecretsOf t := fun hx => (secretsOf_facts t u hx).2.2.1 hu
      rw [hdb]
      exact sg u hu a (by rw [e1 u hus]; exact ha)
    · cases ha)
  -- the types that are not stored
  have hF3 : objFactory o3 = .ok F := by
    have hk : ∀ u ∈ kindTypes, o3.find u = o.find u := fun u hu => by rw [ho3, if_pos (hCkind u hu), hPk u hu]
    rw [objFactory_congr (hk _ (by decide)) (hk _ (by decide)) (hk _ (by decide)), hF]
  obtain ⟨o4, b1, b2⟩ := addBack_ok (attrs.map CkAttr.typ) nssSkipped o3 F (fun u hu => (cf3 u hu).1) hF3
  refine ⟨{ o4 with handle := n }, k4, ?_, v2, rfl, ?_⟩
  · have hsm : id < 2 ^ 32 := by have := (nssNextId_ok _ _ hid).2.2; omega
    unfold Nss.fetch
    simp only [hget, nssId_parse t id hsm, hc, hby, hf2.1, Option.isSome_some, if_true]
    rw [show (if t = .priv then nssSecrets else []) = nssSecretsOf t from rfl, d1]
    simp only [v1, b1]
  · intro u hsk hue hask
    have hu4 : ({ o4 with handle := n } : Obj).find u = o3.find u := b2 u (fun hx => by rw [(cf3 u hx).2] at hsk; cases hsk)
    rw [hu4, ho3]
    have hPu : (delAll o F.ephemeral).find u = o.find u := by
      rw [hP, if_neg (fun hx => hue (ephemeral_mem hF hx))]
    rcases hCask u hsk hask with hx | hx
    · rw [if_pos hx, hPu]
    · rw [if_neg (fun hy => hx (hCsub u hy))]
      cases hy : (delAll o F.ephemeral).find u with
      | none => rw [← hPu, hy]
      | some a => exact absurd (hinC u a hsk hy) hx

/-- **C68 (partial).**  An object of storable attributes that was stored is read back by the same handle: every attribute asked for (or every attribute, if
none is named) is as it was stored, except the one type that is never stored and the validation flags. -/
theorem C68_now_partial (hN : NssOk N) (e e' : Env) (he : calmEnv e) (he' : calmEnv e') (ap : saltsApart e) (m : Bytes) (s s' : Nss) (hs h' : Handles) (o : Obj)
    (n cls : Nat) (hf : fits N m (drawn e) s.keys) (h : s.store N e hs o = (.ok n, s', h')) (hcl : o.getUlong CKA_CLASS = .ok cls)
    (hsto : ∀ t a, o.find t = some a → nssSkippable t = true ∨ nssStorable (sealedIn cls) a)
    (attrs : Template) (cols : List Nat) (hc : nssHints attrs = .ok cols) (hcols : ∀ c ∈ cols, c ∈ nssCols) :
    ∃ o' s'', s'.fetch N e' h' n attrs = (.ok o', s'') ∧ s''.db = s'.db ∧ o'.handle = n ∧
      (∀ u, nssSkippable u = false → u ≠ CKA_OBJECT_VALIDATION_FLAGS → attrs = [] ∨ u ∈ attrs.map CkAttr.typ → o'.find u = o.find u) := by
  obtain ⟨_, _, _, _, _, _, _, _, _, _, _, _, _, _, hf', _⟩ := nssStore_parts he ap hf h
  obtain ⟨o', k, h1, _, h3, h4⟩ := nssFetch_back hN he he' ap hf h hcl hsto rfl hf' hc hcols
  exact ⟨o', _, h1, rfl, h3, h4⟩

theorem sigLoop_password (e : Env) (tbl : NssTbl) (id : Nat) (val : Nat → Option Bytes) : ∀ (ts : List Nat) (i : Nat) (k k' : NssKeys) (d d' : NssDb),
    nssSigLoop N e tbl id val ts i k d = (.ok d', k') → AMap.get d'.mdata .password = AMap.get d.mdata .password := by
  intro ts
  induction ts with
  | nil => intro i k k' d d' h; injection h with h _; injection h with h; subst h; rfl
  | cons u ts ih =>
    intro i k k' d d' h
    rw [nssSigLoop] at h
    split at h
    · exact ih _ _ _ _ _ h
    · split at h
      · cases h
      · split at h
        · cases h
        · rename_i d1 hd1
          rw [ih _ _ _ _ _ h]
          unfold NssDb.saveMeta at hd1
          split at hd1
          · cases hd1
          · injection hd1 with hd1; subst hd1
            show AMap.get (AMap.insert _ _ _) _ = _
            rw [AMap.get_insert, if_neg (by simp)]

/-- Storing an object leaves the password entry alone. -/
theorem store_password {e : Env} {s : Nss} {hs : Handles} {o : Obj} : AMap.get (s.store N e hs o).2.1.db.mdata .password = AMap.get s.db.mdata .password := by
  have tx : ∀ e (k k' : NssKeys) t (o : Obj) id d, nssStoreTx N e s.db k t o = (.ok (id, d), k') → AMap.get d.mdata .password = AMap.get s.db.mdata .password := by
    intro e k k' t o id d h
    unfold nssStoreTx at h
    split at h
    · cases h
    split at h
    · cases h
    rename_i id1 d1 hso
    split at h
    · cases h
    rename_i d2 k2 hsl
    split at h
    · cases h
    injection h with h _
    injection h with h
    injection h with _ h
    subst h
    rw [sigLoop_password _ _ _ _ _ _ _ _ _ _ hsl]
    unfold NssDb.storeObject at hso
    repeat' split at hso
    all_goals first
      | cases hso
      | skip
    rename_i row _ _ _ _ _ _
    cases t <;> rfl
  unfold Nss.store
  split
  · rfl
  split
  · rfl
  split
  · rfl
  split
  · rfl
  split
  · rfl
  split
  · rfl
  · rename_i htx
    have := tx _ _ _ _ _ _ _ htx
    simp only
    split
    · exact this
    · exact this

/-- **C68 (partial).**  The same after the process was started again and the user logged in with the PIN. -/
theorem C68_restart_partial (hN : NssOk N) (e e1 e' : Env) (he : calmEnv e) (he' : calmEnv e') (ap : saltsApart e) (s s' s2 : Nss) (hs h' : Handles) (o : Obj)
    (n cls : Nat) (pin salt data : Bytes) (hp : AMap.get s.db.mdata .password = some (salt, data))
    (hd : ∀ p iv c, N.parse data = some ⟨.pbes2 (some p) iv, c⟩ → ∀ op, ¬ drawn e op p.salt)
    (hf : fits N (N.sha1 (salt ++ pin)) (drawn e) s.keys) (h : s.store N e hs o = (.ok n, s', h')) (hcl : o.getUlong CKA_CLASS = .ok cls)
    (hsto : ∀ t a, o.find t = some a → nssSkippable t = true ∨ nssStorable (sealedIn cls) a)
    (hl : (restarted s').authUser N e1 .user pin false = (.ok (), s2))
    (attrs : Template) (cols : List Nat) (hc : nssHints attrs = .ok cols) (hcols : ∀ c ∈ cols, c ∈ nssCols) :
    ∃ o' s'', s2.fetch N e' h' n attrs = (.ok o', s'') ∧ s''.db = s'.db ∧ o'.handle = n ∧
      (∀ u, nssSkippable u = false → u ≠ CKA_OBJECT_VALIDATION_FLAGS → attrs = [] ∨ u ∈ attrs.map CkAttr.typ → o'.find u = o.find u) := by
  obtain ⟨salt', data', k2, hp', hde, hs2⟩ := auth_ok hl rfl
  have hpw : AMap.get s'.db.mdata .password = some (salt, data) := by
    have := store_password (N := N) (e := e) (s := s) (hs := hs) (o := o)
    rw [h, hp] at this
    exact this
  rw [show (restarted s').db.mdata = s'.db.mdata from rfl, hpw] at hp'
  injection hp' with hp'; injection hp' with ha hb; subst ha; subst hb
  have hf2 : fits N (N.sha1 (salt ++ pin)) (drawn e) s2.keys := by
    obtain ⟨p, iv, c, iv', key, hpa, hiv, hdk, hdec⟩ := decrypt_ok hde
    obtain ⟨hl32, _, hek, _, hor⟩ := derive_ok hdk
    subst hs2
    refine ⟨hek, ?_⟩
    intro op x v hx hv
    rcases hor with ⟨hc0, _⟩ | ⟨_, _, _, _, _, _, hk⟩
    · cases hc0
    · have hv : AMap.get k2.cache x = some v := hv
      rw [hk] at hv
      by_cases hxp : x = p.salt
      · subst hxp
        exact absurd hx (hd p _ _ hpa op)
      · have := setCached_ne hxp hv
        cases this
  have hdb : s2.db = s'.db := by subst hs2; rfl
  obtain ⟨o', k, h1, _, h3, h4⟩ := nssFetch_back hN he he' ap hf h hcl hsto hdb hf2 hc hcols
  exact ⟨o', _, h1, hdb, h3, h4⟩

/-! ## Witnesses -/

/-- A key object with more attributes. -/
def exNssKeyOf (l : List Attr) : Obj := ⟨0, 0, CKO_SECRET_KEY, [Attr.ofUlong CKA_CLASS CKO_SECRET_KEY, Attr.ofUlong CKA_KEY_TYPE CKK_AES,
  Attr.ofBool CKA_TOKEN true, Attr.ofBytes CKA_VALUE [0xa5, 0x00, 0x5a]] ++ l⟩

/-- Storing it and reading it back. -/
def exNssRound (l : List Attr) (attrs : Template) : Except Rv (List Attr) :=
  let x := exNssIn.store exNss (exPlaces 9) Handles.new (exNssKeyOf l)
  okNssObj (x.2.1.fetch exNss (exCalm 0) x.2.2 1 attrs).1

theorem exPlaces_apart : saltsApart (exPlaces 9) := by
  have h : ∀ i, i < 8 → ∀ j, j < 19 → ((((exPlaces 9).sub 0).sub i).sub 0).rnd 32 ≠ ((((((exPlaces 9).sub 1).sub 2).sub j).sub 0).sub 0).rnd 32 := by
    decide +kernel
  rintro x ⟨i, hi, hx⟩ ⟨j, hj, hy⟩
  exact h i hi j hj (hx.symm.trans hy)

theorem exNssIn_fits : fits exNss (exNss.sha1 (List.replicate 20 7 ++ [97, 98, 99, 100])) (drawn (exPlaces 9)) exNssIn.keys := by
  have h1 : exNssIn.keys.enckey = some (exNss.sha1 (List.replicate 20 7 ++ [97, 98, 99, 100])) := by decide +kernel
  have h2 : ∀ i, i < 8 → AMap.get exNssIn.keys.cache (((((exPlaces 9).sub 0).sub i).sub 0).rnd 32) = none := by decide +kernel
  have h3 : ∀ j, j < 19 → AMap.get exNssIn.keys.cache (((((((exPlaces 9).sub 1).sub 2).sub j).sub 0).sub 0).rnd 32) = none := by decide +kernel
  refine ⟨h1, ?_⟩
  intro op salt v hd hv
  cases op with
  | enc =>
    obtain ⟨i, hi, hx⟩ := hd
    subst hx
    rw [h2 i hi] at hv; cases hv
  | sig =>
    obtain ⟨i, hi, hx⟩ := hd
    subst hx
    rw [h3 i hi] at hv; cases hv

/-- The object of the witness: with an encrypted value, a signed one and others. -/
def exNssFull : Obj := exNssKeyOf [Attr.ofBytes CKA_ID [1, 2], Attr.ofBytes CKA_MODULUS [5, 6, 7], Attr.ofUlong CKA_MODULUS_BITS 2048]

theorem exNssFull_storable (t : Nat) (a : Attr) (h : exNssFull.find t = some a) : nssSkippable t = true ∨ nssStorable (sealedIn CKO_SECRET_KEY) a := by
  right
  have hm : a ∈ exNssFull.attrs := List.mem_of_find?_eq_some h
  have num : ∀ t n, attrKind t = some .num → sealedIn CKO_SECRET_KEY t = false → n < 2 ^ 32 → t ≠ CKA_PARAMETER_SET →
      nssStorable (sealedIn CKO_SECRET_KEY) (Attr.ofUlong t n) := by
    intro t n h1 h2 h3 h4
    exact ⟨h1, h2, n, rfl, h3, fun h => absurd h h4⟩
  simp only [exNssFull, exNssKeyOf, List.cons_append, List.nil_append, List.mem_cons, List.not_mem_nil, or_false] at hm
  rcases hm with hm | hm | hm | hm | hm | hm | hm <;> subst hm
  · exact num _ _ (by decide +kernel) (by decide +kernel) (by decide) (by decide)
  · exact num _ _ (by decide +kernel) (by decide +kernel) (by decide) (by decide)
  · exact ⟨by decide +kernel, fun h => absurd h (by decide)⟩
  · exact ⟨by decide +kernel, fun _ => by decide +kernel⟩
  · exact ⟨by decide +kernel, fun h => absurd h (by decide)⟩
  · exact ⟨by decide +kernel, fun h => absurd h (by decide)⟩
  · exact num _ _ (by decide +kernel) (by decide +kernel) (by decide) (by decide)

/-- Its store. -/
def exNssFullStored : Res Nat × Nss × Handles := exNssIn.store exNss (exPlaces 9) Handles.new exNssFull

set_option maxRecDepth 20000 in
/-- Witness of `C68_now_partial`: its hypotheses hold of this object. -/
theorem C68_now_witness : ∃ o' s'', exNssFullStored.2.1.fetch exNss (exCalm 0) exNssFullStored.2.2 1 [] = (.ok o', s'') ∧ o'.handle = 1 ∧
    (∀ u, nssSkippable u = false → u ≠ CKA_OBJECT_VALIDATION_FLAGS → o'.find u = exNssFull.find u) := by
  have h1 : exNssFullStored.1 = .ok 1 := by decide +kernel
  obtain ⟨o', s'', a, _, b, c⟩ := C68_now_partial exNss_ok (exPlaces 9) (exCalm 0) (exPlaces_ok 9) (exCalm_ok 0) exPlaces_apart _ exNssIn exNssFullStored.2.1
    Handles.new exNssFullStored.2.2 exNssFull 1 CKO_SECRET_KEY exNssIn_fits (by rw [← h1]; rfl) (by decide +kernel) exNssFull_storable [] [] rfl
    (fun c hc => by cases hc)
  exact ⟨o', s'', a, b, fun u hu hv => c u hu hv (.inl rfl)⟩

/-- The user after a restart and a login. -/
def exNssAgain : Res Unit × Nss := (restarted exNssFullStored.2.1).authUser exNss (exCalm 0) .user [97, 98, 99, 100] false

set_option maxRecDepth 20000 in
/-- Witness of `C68_restart_partial`: the login succeeds and the object is the same. -/
theorem C68_restart_witness : exNssAgain.1 = .ok () ∧
    okNssObj (exNssAgain.2.fetch exNss (exCalm 0) exNssFullStored.2.2 1 []).1 = .ok [Attr.ofUlong CKA_CLASS CKO_SECRET_KEY, Attr.ofBool CKA_TOKEN true,
      Attr.ofBytes CKA_VALUE [0xa5, 0x00, 0x5a], Attr.ofUlong CKA_KEY_TYPE CKK_AES, Attr.ofBytes CKA_ID [1, 2], Attr.ofBytes CKA_MODULUS [5, 6, 7],
      Attr.ofUlong CKA_MODULUS_BITS 2048] := by
  decide +kernel

/-- **C68 is violated.**  The value that stands for an empty one is read as empty, whatever the type. -/
theorem C68_null_violation (t : Nat) (k : AttrType) (hk : attrKind t = some k) (h : k = .bytes ∨ k = .string) :
    ∃ v, nssColVal ⟨t, k, [0xa5, 0x00, 0x5a]⟩ = .ok v ∧ nssReadCol t v = .ok ⟨t, k, []⟩ := by
  refine ⟨nssNull, ?_, ?_⟩
  · rcases h with h | h <;> subst h <;> rfl
  · unfold nssReadCol
    simp only [hk]
    rcases h with h | h <;> subst h <;> rfl

/-- **C68 is violated.**  CK_UNAVAILABLE_INFORMATION, the usual CKA_KEY_GEN_MECHANISM of an imported key, is read as another number. -/
theorem C68_unavailable_violation (t : Nat) (hk : attrKind t = some .num) (h : t ≠ CKA_PARAMETER_SET) :
    ∃ v, nssColVal (Attr.ofUlong t CK_UNAVAILABLE_INFORMATION) = .ok v ∧ nssReadCol t v = .ok (Attr.ofUlong t (2 ^ 32 - 1)) := by
  refine ⟨toBE 4 (2 ^ 32 - 1), ?_, ?_⟩
  · unfold nssColVal
    rw [if_neg (by exact (by decide : ulongBytes CK_UNAVAILABLE_INFORMATION ≠ []))]
    have := toUlong_ofUlong t CK_UNAVAILABLE_INFORMATION (by decide)
    simp only [show (Attr.ofUlong t CK_UNAVAILABLE_INFORMATION).atype = .num from rfl, this]
    rfl
  · unfold nssReadCol
    simp only [hk, if_neg h]
    rfl

set_option maxRecDepth 20000 in
/-- Witness of the violations: an identifier is lost, a mechanism becomes another, the allowed mechanisms are not stored. -/
theorem C68_violation_witness :
    ((exNssRound [Attr.ofBytes CKA_ID [0xa5, 0x00, 0x5a]] []).toOption.bind fun l => l.find? fun a => a.typ == CKA_ID) = some (Attr.ofBytes CKA_ID []) ∧
    ((exNssRound [Attr.ofUlong CKA_KEY_GEN_MECHANISM CK_UNAVAILABLE_INFORMATION] []).toOption.bind fun l => l.find? fun a => a.typ == CKA_KEY_GEN_MECHANISM) =
      some (Attr.ofUlong CKA_KEY_GEN_MECHANISM 0xffffffff) ∧
    ((exNssRound [⟨CKA_ALLOWED_MECHANISMS, .ulongArray, ulongBytes 1⟩] []).toOption.bind fun l => l.find? fun a => a.typ == CKA_ALLOWED_MECHANISMS) = none := by
  decide +kernel

end Kry
