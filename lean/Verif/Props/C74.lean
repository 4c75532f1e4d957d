import Verif.Props.C73

/-! C74: what C_SetAttributeValue sets on an object of an NSS database is read back. -/

namespace Kry
open Spec (nssStorable)

variable {N : NssLib}

/-- A number without a row gives no object. -/
theorem nssFetch_row {e : Env} {s s' : Nss} {hs : Handles} {n : Nat} {tm : Template} {o : Obj} (h : s.fetch N e hs n tm = (.ok o, s')) {uid : Bytes}
    (hu : hs.get n = some uid) {t : NssTbl} {id : Nat} (hp : nssIdParse uid = .ok (t, id)) : ∃ row, AMap.get (s.db.rows t) id = some row := by
  cases hr : AMap.get (s.db.rows t) id with
  | some row => exact ⟨row, rfl⟩
  | none =>
    exfalso
    unfold Nss.fetch at h
    simp only [hu, hp] at h
    split at h
    · cases h
    rename_i cols hcols
    split at h
    · cases h
    rename_i o1 ho1
    have h1 : o1 = Obj.new CK_UNAVAILABLE_INFORMATION := by
      unfold NssDb.fetchById at ho1
      split at ho1
      · cases ho1
      split at ho1
      · cases ho1
      rw [hr] at ho1
      injection ho1 with ho1
      exact ho1.symm
    subst h1
    have no : ∀ o2 : Obj, (∀ u ∈ kindTypes, o2.find u = (Obj.new CK_UNAVAILABLE_INFORMATION).find u) → ∃ r, nssAddBack (tm.map CkAttr.typ) nssSkipped o2 = .error r := by
      intro o2 h2
      have hF : objFactory o2 = objFactory (Obj.new CK_UNAVAILABLE_INFORMATION) :=
        objFactory_congr (h2 _ (by decide)) (h2 _ (by decide)) (h2 _ (by decide))
      have he : ∃ r, objFactory (Obj.new CK_UNAVAILABLE_INFORMATION) = .error r := by
        cases hx : objFactory (Obj.new CK_UNAVAILABLE_INFORMATION) with
        | error r => exact ⟨r, rfl⟩
        | ok F =>
          have : (objFactory (Obj.new CK_UNAVAILABLE_INFORMATION)).toOption.isNone = true := by decide +kernel
          rw [hx] at this; cases this
      obtain ⟨r, hr⟩ := he
      rw [show nssSkipped = [0x40000600] from by decide +kernel, nssAddBack, hF, hr]
      exact ⟨r, rfl⟩
    cases hk : s.keys.enckey.isSome with
    | false =>
      simp only [hk, Bool.false_eq_true, if_false] at h
      obtain ⟨r, hr⟩ := no _ fun _ _ => rfl
      rw [hr] at h
      simp only at h
      cases h
    | true =>
      simp only [hk, if_true] at h
      generalize hz : nssDecLoop N (e.sub 1) (if t = .priv then nssSecrets else []) 0 s.keys (Obj.new CK_UNAVAILABLE_INFORMATION) = z at h
      obtain ⟨q, k1⟩ := z
      cases q with
      | error q => simp only at h; cases h
      | ok o2 =>
        simp only at h
        have hf : ∀ u ∈ kindTypes, o2.find u = (Obj.new CK_UNAVAILABLE_INFORMATION).find u := fun u hu' => decLoop_find _ _ _ _ _ _ hz u (by
          have : ∀ u ∈ kindTypes, u ∉ nssSecrets := by decide +kernel
          split
          · exact this u hu'
          · exact List.not_mem_nil)
        obtain ⟨r, hr⟩ := no o2 hf
        generalize nssVerLoop N (e.sub 2) s.db t id o2 nssSigned 0 k1 = z2 at h
        obtain ⟨q, k2⟩ := z2
        cases q with
        | error q => simp only at h; cases h
        | ok v =>
          simp only at h
          rw [hr] at h
          cases h

theorem setCols_found : ∀ (new row : NssRow) (c : Nat) (v : Bytes), (new.map Prod.fst).Nodup → AMap.get new c = some v → AMap.get (nssSetCols row new) c = some v := by
  intro new
  induction new with
  | nil => intro row c v _ h; cases h
  | cons p new ih =>
    intro row c v nd h
    rw [List.map_cons, List.nodup_cons] at nd
    show AMap.get (nssSetCols (AMap.insert row p.1 p.2) new) c = _
    obtain ⟨a, b⟩ := p
    rw [AMap.get] at h
    split at h
    · rename_i he
      simp only at nd
      rw [setCols_get _ _ _ (by rw [← he]; exact nd.1), AMap.get_insert, if_pos he]
      exact h
    · exact ih _ c v nd.2 h

theorem makeRow_nodup : ∀ (l : List Attr) (row : NssRow), nssMakeRow l = .ok row → (l.map Attr.typ).Nodup → (row.map Prod.fst).Nodup := by
  intro l
  induction l with
  | nil => intro row h _; injection h with h; subst h; exact List.nodup_nil
  | cons a l ih =>
    intro row h nd
    rw [List.map_cons, List.nodup_cons] at nd
    rw [nssMakeRow] at h
    split at h
    · exact ih _ h nd.2
    split at h
    · cases h
    split at h
    · cases h
    split at h
    · cases h
    rename_i row1 hr
    injection h with h
    subst h
    rw [List.map_cons, List.nodup_cons]
    exact ⟨fun hm => nd.1 (makeRow_types _ _ hr _ hm), ih _ hr nd.2⟩

theorem fromTemplate_find : ∀ (t : Template) (l : List Attr), nssFromTemplate t = .ok l → (t.map CkAttr.typ).Nodup → ∀ c ∈ t,
    ∃ a, Attr.fromCk c = .ok a ∧ l.find? (fun a => a.typ == c.typ) = some a := by
  intro t
  induction t with
  | nil => intro l _ _ c hc; cases hc
  | cons d t ih =>
    intro l h nd c hc
    rw [List.map_cons, List.nodup_cons] at nd
    rw [nssFromTemplate] at h
    split at h
    · cases h
    rename_i a ha
    split at h
    · cases h
    rename_i as has
    injection h with h
    subst h
    rcases List.mem_cons.1 hc with hx | hx
    · subst hx
      exact ⟨a, ha, by rw [List.find?_cons_of_pos (by simp [fromCk_typ ha])]⟩
    · obtain ⟨b, hb, hf⟩ := ih _ has nd.2 c hx
      refine ⟨b, hb, ?_⟩
      rw [List.find?_cons_of_neg (by
        rw [fromCk_typ ha]
        simp only [beq_iff_eq]
        exact fun he => nd.1 (by rw [he]; exact List.mem_map.2 ⟨c, hx, rfl⟩))]
      exact hf

theorem replaceFirst_other {ty : Nat} {v : Bytes} {c : CkAttr} (hne : c.typ ≠ ty) : ∀ {t : Template}, c ∈ t → c ∈ replaceFirst t ty v := by
  intro t
  induction t with
  | nil => intro hc; cases hc
  | cons d t ih =>
    intro hc
    unfold replaceFirst
    split
    · rename_i hd
      rcases List.mem_cons.1 hc with hx | hx
      · subst hx; exact absurd hd hne
      · exact .tail _ hx
    · rcases List.mem_cons.1 hc with hx | hx
      · subst hx; exact .head _
      · exact .tail _ (ih hx)

theorem encTmpl_keep {e : Env} : ∀ (ts : List Nat) (i : Nat) (k k' : NssKeys) (t t' : Template), nssEncTmpl N e ts i k t = (.ok t', k') →
    ∀ c ∈ t, c.typ ∉ ts → c ∈ t' := by
  intro ts
  induction ts with
  | nil => intro i k k' t t' h c hc _; injection h with h _; injection h with h; subst h; exact hc
  | cons ty ts ih =>
    intro i k k' t t' h c hc hn
    rw [nssEncTmpl] at h
    split at h
    · exact ih _ _ _ _ _ h c hc (fun hm => hn (.tail _ hm))
    split at h
    · cases h
    · refine ih _ _ _ _ _ h c ?_ (fun hm => hn (.tail _ hm))
      exact replaceFirst_other (fun he => hn (by rw [he]; exact .head _)) hc

/-- **C74 (partial).**  After a C_SetAttributeValue that succeeds, whoever reads the object and is answered gets the values of the template, and the values that
were read before of the attributes which the template does not name.  Missing: CKA_CLASS, the encrypted attributes, and that reading succeeds. -/
theorem C74_read_partial (e : Env) (s s' : Nss) (hs : Handles) (logged : Bool) (n : Nat) (tm : Template) (h : s.setObjectAttrs N e hs logged n tm = (.ok (), s'))
    (nd : (tm.map CkAttr.typ).Nodup) (e' : Env) (k : NssKeys) (ask : Template) (o : Obj) (s'' : Nss) (hf : (⟨s'.db, k⟩ : Nss).fetch N e' hs n ask = (.ok o, s'')) :
    (∀ c ∈ tm, c.typ ∉ nssSecrets → c.typ ∈ nssCols → c.typ ≠ CKA_CLASS → nssIgnored c.typ = false → (ask = [] ∨ c.typ ∈ ask.map CkAttr.typ) →
      ∀ a, Attr.fromCk c = .ok a → nssStorable (fun _ => false) a → o.find c.typ = some a) ∧
    (∀ u, u ∉ tm.map CkAttr.typ → u ∉ nssSecrets → u ∈ nssCols → u ≠ CKA_CLASS → nssIgnored u = false → (ask = [] ∨ u ∈ ask.map CkAttr.typ) →
      ∀ e0 k0 ask0 o0 s0, (⟨s.db, k0⟩ : Nss).fetch N e0 hs n ask0 = (.ok o0, s0) → (ask0 = [] ∨ u ∈ ask0.map CkAttr.typ) → o.find u = o0.find u) := by
  obtain ⟨_, s1, _, _, hdb, hf1, _, _, _, hup⟩ := (setAttrs_parts h).2 rfl
  obtain ⟨uid, t, id, tm', k1, k2, new, as, hu, hp, henc, has, hnew, _, hrows, _, _⟩ := (nssUpdate_parts hup).2 rfl
  have htt : tm'.map CkAttr.typ = tm.map CkAttr.typ := encTmpl_types _ _ _ _ _ _ henc
  obtain ⟨row, hrow⟩ := nssFetch_row hf1 hu hp
  have hrow' : AMap.get ((⟨s'.db, k⟩ : Nss).db.rows t) id = some (nssSetCols row new) := by
    show AMap.get (s'.db.rows t) id = _
    rw [hrows, if_pos rfl, hdb, AMap.get_modify, if_pos rfl, hrow]
    rfl
  constructor
  · intro c hc hsec hcol hcl hig hask a ha hst
    have hc' : c ∈ tm' := encTmpl_keep _ _ _ _ _ _ henc c hc (by
      unfold nssSecretsOf
      split
      · exact hsec
      · exact List.not_mem_nil)
    obtain ⟨a', ha', hfind⟩ := fromTemplate_find _ _ has (by rw [htt]; exact nd) c hc'
    rw [ha] at ha'
    injection ha' with ha'
    subst ha'
    obtain ⟨v, hv, hg⟩ := (nssMakeRow_get hnew c.typ).2.2 (nssCols_facts.1 _ hcol).1 a hfind
    have hgot : AMap.get (nssSetCols row new) c.typ = some v :=
      setCols_found _ _ _ _ (makeRow_nodup _ _ hnew (by rw [fromTemplate_types _ _ has, htt]; exact nd)) hg
    obtain ⟨x, hx, ho⟩ := (fetch_col hf hu hp hrow' c.typ hcol hsec hig hcl hask).2 v hgot
    have hr := nssStorable_read hst rfl hv
    rw [fromCk_typ ha, hx] at hr
    injection hr with hr
    rw [ho, hr]
  · intro u hun hsec hcol hcl hig hask e0 k0 ask0 o0 s0 hf0 hask0
    have hsame : AMap.get (nssSetCols row new) u = AMap.get row u := setCols_get _ _ _ fun hm => hun (by
      rw [← htt, ← fromTemplate_types _ _ has]
      exact makeRow_types _ _ hnew u hm)
    have a1 := fetch_col hf hu hp hrow' u hcol hsec hig hcl hask
    have a0 := fetch_col hf0 hu hp (show AMap.get ((⟨s.db, k0⟩ : Nss).db.rows t) id = some row from hrow) u hcol hsec hig hcl hask0
    rw [hsame] at a1
    cases hb : AMap.get row u with
    | none => rw [a1.1 hb, a0.1 hb]
    | some b =>
      obtain ⟨x, hx, h1⟩ := a1.2 b hb
      obtain ⟨y, hy, h0⟩ := a0.2 b hb
      rw [hx] at hy
      injection hy with hy
      rw [h1, h0, hy]

/-! ## Witnesses -/

/-- C_SetAttributeValue on the first key of `exNssMixed`. -/
def exNssChange (tm : Template) : Res Unit × Nss := exNssMixed.1.setObjectAttrs exNss (exPlaces 55) exNssMixed.2 true 1 tm

/-- What is read of it afterwards. -/
def exNssAfter (tm : Template) (u : Nat) : Except Rv (Option Attr) :=
  match okNssObj ((exNssChange tm).2.fetch exNss (exCalm 0) exNssMixed.2 1 [⟨u, .null 0⟩]).1 with
  | .ok l => .ok (l.find? fun a => a.typ == u)
  | .error r => .error r

set_option maxRecDepth 20000 in
/-- Witness of `C73_set` and `C74_read_partial`: the identifier and the value of a key are changed, and read back. -/
theorem C74_witness : (exNssChange [CkAttr.mk' CKA_ID [9, 9], CkAttr.mk' CKA_VALUE [8, 8, 8]]).1 = .ok () ∧
    exNssAfter [CkAttr.mk' CKA_ID [9, 9], CkAttr.mk' CKA_VALUE [8, 8, 8]] CKA_ID = .ok (some (Attr.ofBytes CKA_ID [9, 9])) ∧
    exNssAfter [CkAttr.mk' CKA_ID [9, 9], CkAttr.mk' CKA_VALUE [8, 8, 8]] CKA_VALUE = .ok (some (Attr.ofBytes CKA_VALUE [8, 8, 8])) ∧
    exNssAfter [CkAttr.mk' CKA_ID [9, 9], CkAttr.mk' CKA_VALUE [8, 8, 8]] CKA_PRIVATE = .ok (some (Attr.ofBool CKA_PRIVATE true)) ∧
    CKA_ID ∉ nssSecrets ∧ CKA_ID ∈ nssCols ∧ nssIgnored CKA_ID = false := by
  decide +kernel

set_option maxRecDepth 20000 in
/-- The claim fails for CKA_CLASS: C_SetAttributeValue makes the secret key a public one, but the object stays in the table of private objects.  A search for public
keys does not find it, one for secret keys does not either, and it cannot be read any more. -/
theorem C74_class_violation : (exNssChange [CkAttr.ofUlong CKA_CLASS CKO_PUBLIC_KEY]).1 = .ok () ∧
    (exNssMixed.1.searchObjects (exCalm 0) exNssMixed.2 true [CkAttr.ofUlong CKA_CLASS CKO_SECRET_KEY]).1 = .ok [1, 2] ∧
    ((exNssChange [CkAttr.ofUlong CKA_CLASS CKO_PUBLIC_KEY]).2.searchObjects (exCalm 0) exNssMixed.2 true [CkAttr.ofUlong CKA_CLASS CKO_PUBLIC_KEY]).1 = .ok [] ∧
    ((exNssChange [CkAttr.ofUlong CKA_CLASS CKO_PUBLIC_KEY]).2.searchObjects (exCalm 0) exNssMixed.2 true [CkAttr.ofUlong CKA_CLASS CKO_SECRET_KEY]).1 = .ok [2] ∧
    exNssAfter [CkAttr.ofUlong CKA_CLASS CKO_PUBLIC_KEY] CKA_CLASS = .error .attrValueInvalid := by
  decide +kernel

set_option maxRecDepth 20000 in
/-- The claim fails for a template with two values of an encrypted attribute: the first one is encrypted, the second one is stored, as it is. -/
theorem C74_twice_violation : (exNssChange [CkAttr.mk' CKA_VALUE [9, 9], CkAttr.mk' CKA_VALUE [7, 7, 7, 7]]).1 = .ok () ∧
    ((AMap.get (exNssChange [CkAttr.mk' CKA_VALUE [9, 9], CkAttr.mk' CKA_VALUE [7, 7, 7, 7]]).2.db.priv 1).bind fun r => AMap.get r CKA_VALUE) = some [7, 7, 7, 7] ∧
    exNssAfter [CkAttr.mk' CKA_VALUE [9, 9], CkAttr.mk' CKA_VALUE [7, 7, 7, 7]] CKA_VALUE = .error .dataInvalid := by
  decide +kernel

/-- Witness of `C73_runs` and `C73_store`: a login, two stores, a search, a change and a store that is refused. -/
def exNssCalls : List NssCall := [.login (exCalm 0) .user [97, 98, 99, 100] false, .store (exPlaces 9) (exNssKeyOf [Attr.ofBytes CKA_ID [1, 2]]),
  .store (exPlaces 77) (exNssKeyOf [Attr.ofBytes CKA_ID [3]]), .search (exCalm 0) true [], .set (exPlaces 55) true 1 [CkAttr.mk' CKA_ID [9, 9]], .logout,
  .store (exPlaces 99) (exNssKeyOf [])]

set_option maxRecDepth 20000 in
theorem C73_witness : (nssRuns exNss ⟨⟨[], [], []⟩, NssKeys.default⟩ Handles.new (.setPin (exCalm 7) .user [97, 98, 99, 100] :: exNssCalls)).2.map.map Prod.fst = [1, 2] ∧
    (nssRuns exNss ⟨⟨[], [], []⟩, NssKeys.default⟩ Handles.new (.setPin (exCalm 7) .user [97, 98, 99, 100] :: exNssCalls)).1.db.priv.map Prod.fst = [1, 2] ∧
    ((AMap.get (nssRuns exNss ⟨⟨[], [], []⟩, NssKeys.default⟩ Handles.new (.setPin (exCalm 7) .user [97, 98, 99, 100] :: exNssCalls)).1.db.priv 1).bind
      fun r => AMap.get r CKA_ID) = some [9, 9] := by
  decide +kernel

theorem skipped_nodef : allFactories (fun F => F.attrs.all fun f => !nssSkipped.contains f.typ || !f.hasDefault) = true := by decide +kernel

theorem addBack_none (asked : List Nat) : ∀ (ts : List Nat) (o o' : Obj), (∀ t ∈ ts, t ∈ nssSkipped) → nssAddBack asked ts o = .ok o' → ∀ t, o'.find t = o.find t := by
  intro ts
  induction ts with
  | nil => intro o o' _ h t; injection h with h; subst h; rfl
  | cons u ts ih =>
    intro o o' hs h t
    rw [nssAddBack] at h
    split at h
    · cases h
    rename_i F hF
    obtain ⟨k, hm⟩ := objFactory_mem hF
    have hd := allFactories_spec skipped_nodef hm
    rw [List.all_eq_true] at hd
    have hs' : ∀ t ∈ ts, t ∈ nssSkipped := fun t ht => hs t (.tail _ ht)
    split at h
    · split at h
      · rename_i fa hfa
        have hd := hd fa (List.mem_of_find?_eq_some hfa)
        have hty : fa.typ = u := by simpa using List.find?_some hfa
        rw [hty, List.contains_iff_mem.2 (hs u (.head _))] at hd
        rw [if_neg (by simpa using hd)] at h
        exact ih _ _ hs' h t
      · exact ih _ _ hs' h t
    · exact ih _ _ hs' h t

/-- **C68, attributes without a column.**  The attributes that `store` leaves out are not invented when the object is read: they are missing, whether they are asked
for or not. -/
theorem C68_missing (e : Env) (s s' : Nss) (hs : Handles) (n : Nat) (tm : Template) (o : Obj) (h : s.fetch N e hs n tm = (.ok o, s')) (uid : Bytes)
    (hu : hs.get n = some uid) (t : NssTbl) (id : Nat) (hp : nssIdParse uid = .ok (t, id)) (row : NssRow) (hr : AMap.get (s.db.rows t) id = some row) (c : Nat)
    (hc : c ∈ nssSkipped) (hn : AMap.get row c = none) : o.find c = none := by
  have facts : ∀ c ∈ nssSkipped, c ≠ CKA_CLASS ∧ c ∉ nssSecrets := by decide +kernel
  obtain ⟨hcl, hsec⟩ := facts c hc
  unfold Nss.fetch at h
  simp only [hu, hp] at h
  split at h
  · cases h
  rename_i cols hcols
  split at h
  · cases h
  rename_i o1 ho1
  have base : o1.find c = none := by
    unfold NssDb.fetchById at ho1
    split at ho1
    · cases ho1
    split at ho1
    · cases ho1
    rw [hr] at ho1
    unfold nssRowObj at ho1
    simp only at ho1
    split at ho1
    · cases ho1
    rename_i o2 ho2
    split at ho1
    · cases ho1
    injection ho1 with ho1; subst ho1
    rcases readCols_find _ _ _ ho2 c with hx | ⟨b, _, hb, _⟩
    · rw [hx]
      unfold Obj.find Obj.new
      rw [List.find?_cons_of_neg (by simpa using fun h => hcl h.symm)]
      rfl
    · rw [hn] at hb; cases hb
  have fin : ∀ o2 k, ((match nssAddBack (tm.map CkAttr.typ) nssSkipped o2 with
      | .error r => (.error r, { s with keys := k })
      | .ok o => (.ok { o with handle := n }, { s with keys := k })) : Res Obj × Nss) = (.ok o, s') → o.find c = o2.find c := by
    intro o2 k hx
    split at hx
    · cases hx
    rename_i o3 ho3
    injection hx with hx _
    injection hx with hx; subst hx
    exact addBack_none _ _ _ _ (fun _ ht => ht) ho3 c
  rw [← base]
  cases hk : s.keys.enckey.isSome with
  | false =>
    simp only [hk, Bool.false_eq_true, if_false] at h
    exact fin _ _ h
  | true =>
    simp only [hk, if_true] at h
    generalize hz : nssDecLoop N (e.sub 1) (if t = .priv then nssSecrets else []) 0 s.keys o1 = z at h
    obtain ⟨q, k1⟩ := z
    cases q with
    | error q => simp only at h; cases h
    | ok o2 =>
      simp only at h
      have hf := decLoop_find _ _ _ _ _ _ hz c (by
        split
        · exact hsec
        · exact List.not_mem_nil)
      generalize nssVerLoop N (e.sub 2) s.db t id o2 nssSigned 0 k1 = z2 at h
      obtain ⟨q, k2⟩ := z2
      cases q with
      | error q => simp only at h; cases h
      | ok v =>
        simp only at h
        rw [← hf]
        exact fin _ _ h

set_option maxRecDepth 20000 in
/-- Witness of `C68_missing`: the attribute is asked for and the read succeeds. -/
example : CKA_ALLOWED_MECHANISMS ∈ nssSkipped ∧
    (okNssObj (exNssMixed.1.fetch exNss (exCalm 0) exNssMixed.2 1 [⟨CKA_ALLOWED_MECHANISMS, .null 0⟩]).1).map (fun l => l.any fun a => a.typ == CKA_KEY_TYPE) = .ok true ∧
    (AMap.get exNssMixed.1.db.priv 1).isSome = true := by
  decide +kernel

end Kry
