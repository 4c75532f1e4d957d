import Verif.Props.C68

/-!
# C69: secrets and signatures of an NSS database
-/

namespace Kry

open Spec (calmEnv NssOk fits drawn saltsApart sealedIn nssStorable restarted sameBut signedBy)

variable {N : NssLib}

/-! ## Secrets leave only as ciphertexts -/

theorem sameBut_refl (ts : List Nat) (l : List Attr) : sameBut N ts l l := by
  induction l with
  | nil => trivial
  | cons a l ih => exact ⟨rfl, rfl, .inl rfl, ih⟩

theorem sameBut_nil {l m : List Attr} (h : sameBut N [] l m) : l = m := by
  induction l generalizing m with
  | nil =>
    cases m with
    | nil => rfl
    | cons b m => exact absurd h id
  | cons a l ih =>
    cases m with
    | nil => exact absurd h id
    | cons b m =>
      obtain ⟨h1, h2, h3, h4⟩ := h
      rw [ih h4]
      congr 1
      obtain ⟨t, k, v⟩ := a
      obtain ⟨t', k', v'⟩ := b
      simp only at h1 h2 h3
      rcases h3 with h3 | ⟨h3, _⟩
      · subst h1; subst h2; subst h3; rfl
      · cases h3

theorem sameBut_find {ts : List Nat} {l m : List Attr} (h : sameBut N ts l m) (t : Nat) :
    (l.find? (fun a => a.typ == t) = none ∧ m.find? (fun a => a.typ == t) = none) ∨
    ∃ a b, l.find? (fun a => a.typ == t) = some a ∧ m.find? (fun a => a.typ == t) = some b ∧ a.typ = t ∧ b.typ = t ∧ a.atype = b.atype ∧
      (a.value = b.value ∨ (t ∈ ts ∧ ∀ k iv, N.enc k iv a.value = N.enc k iv b.value)) := by
  induction l generalizing m with
  | nil =>
    cases m with
    | nil => exact .inl ⟨rfl, rfl⟩
    | cons b m => exact absurd h id
  | cons a l ih =>
    cases m with
    | nil => exact absurd h id
    | cons b m =>
      obtain ⟨h1, h2, h3, h4⟩ := h
      by_cases ht : a.typ = t
      · right
        refine ⟨a, b, List.find?_cons_of_pos (by simpa using ht), List.find?_cons_of_pos (by simpa [← h1] using ht), ht, by rw [← h1]; exact ht, h2, ?_⟩
        rw [← ht]; exact h3
      · rw [List.find?_cons_of_neg (by simpa using ht), List.find?_cons_of_neg (by simpa [← h1] using ht)]
        exact ih h4

theorem sameBut_strip {u : Nat} {ts : List Nat} : ∀ l m : List Attr, sameBut N (u :: ts) l m → (l.filter fun a => a.typ == u).length = 0 → sameBut N ts l m := by
  intro l
  induction l with
  | nil => intro m h _; cases m with
    | nil => trivial
    | cons b m => exact absurd h id
  | cons a l ih =>
    intro m h hl
    cases m with
    | nil => exact absurd h id
    | cons b m =>
      obtain ⟨h1, h2, h3, h4⟩ := h
      have hau : a.typ ≠ u := by
        intro hx
        rw [List.filter_cons_of_pos (by simpa using hx)] at hl
        cases hl
      rw [List.filter_cons_of_neg (by simpa using hau)] at hl
      refine ⟨h1, h2, ?_, ih m h4 hl⟩
      rcases h3 with h3 | ⟨h3, h5⟩
      · exact .inl h3
      · rcases List.mem_cons.1 h3 with h6 | h6
        · exact absurd h6 hau
        · exact .inr ⟨h6, h5⟩

theorem sameBut_set {u : Nat} {ts : List Nat} {l m : List Attr} (h : sameBut N (u :: ts) l m) (x : Attr) (hx : x.typ = u)
    (hone : (l.filter fun a => a.typ == u).length ≤ 1) (hp : l.find? (fun a => a.typ == u) ≠ none) : sameBut N ts (Obj.setList l x) (Obj.setList m x) := by
  induction l generalizing m with
  | nil => exact absurd rfl hp
  | cons a l ih =>
    cases m with
    | nil => exact absurd h id
    | cons b m =>
      obtain ⟨h1, h2, h3, h4⟩ := h
      unfold Obj.setList
      by_cases ht : a.typ = u
      · rw [if_pos (by rw [hx]; exact ht), if_pos (by rw [hx, ← h1]; exact ht)]
        rw [List.filter_cons_of_pos (by simpa using ht), List.length_cons] at hone
        exact ⟨rfl, rfl, .inl rfl, sameBut_strip l m h4 (by omega)⟩
      · rw [if_neg (by rw [hx]; exact ht), if_neg (by rw [hx, ← h1]; exact ht)]
        rw [List.filter_cons_of_neg (by simpa using ht)] at hone
        rw [List.find?_cons_of_neg (by simpa using ht)] at hp
        refine ⟨h1, h2, ?_, ih h4 hone hp⟩
        rcases h3 with h3 | ⟨h3, h5⟩
        · exact .inl h3
        · rcases List.mem_cons.1 h3 with h6 | h6
          · exact absurd h6 ht
          · exact .inr ⟨h6, h5⟩

theorem encrypt_same (e : Env) (k : NssKeys) (it : Nat) {v w : Bytes} (h : ∀ k iv, N.enc k iv v = N.enc k iv w) : nssEncrypt N e k it v = nssEncrypt N e k it w := by
  unfold nssEncrypt
  simp only [h]

theorem nodup_filter {l : List Attr} (h : (l.map Attr.typ).Nodup) (u : Nat) : (l.filter fun a => a.typ == u).length ≤ 1 := by
  induction l with
  | nil => exact Nat.zero_le _
  | cons a l ih =>
    rw [List.map_cons, List.nodup_cons] at h
    by_cases ha : a.typ = u
    · rw [List.filter_cons_of_pos (by simpa using ha), List.length_cons]
      have : l.filter (fun a => a.typ == u) = [] := by
        apply List.filter_eq_nil_iff.2
        intro b hb hbu
        have hbu : b.typ = u := by simpa using hbu
        exact h.1 (List.mem_map.2 ⟨b, hb, by rw [hbu, ha]⟩)
      rw [this]
      exact Nat.le_refl _
    · rw [List.filter_cons_of_neg (by simpa using ha)]
      exact ih h.2

theorem encLoop_same (e : Env) : ∀ (ts : List Nat) (i : Nat) (k : NssKeys) (o o' : Obj), (o.attrs.map Attr.typ).Nodup → sameBut N ts o.attrs o'.attrs →
    o.handle = o'.handle → o.session = o'.session → o.cls = o'.cls → (∀ t ∈ ts, t ≠ CKA_CLASS) → nssEncLoop N e ts i k o = nssEncLoop N e ts i k o' := by
  intro ts
  induction ts with
  | nil =>
    intro i k o o' _ h h1 h2 h3 _
    have := sameBut_nil h
    obtain ⟨a, b, c, d⟩ := o
    obtain ⟨a', b', c', d'⟩ := o'
    simp only at this h1 h2 h3
    subst this; subst h1; subst h2; subst h3
    rfl
  | cons u ts ih =>
    intro i k o o' hnd h h1 h2 h3 hcl
    have hcl' : ∀ t ∈ ts, t ≠ CKA_CLASS := fun t ht => hcl t (.tail _ ht)
    rw [nssEncLoop, nssEncLoop]
    rcases sameBut_find h u with ⟨ha, hb⟩ | ⟨a, b, ha, hb, _, _, _, hv⟩
    · have ha' : o.find u = none := ha
      have hb' : o'.find u = none := hb
      rw [ha', hb']
      simp only
      refine ih (i + 1) k o o' hnd (sameBut_strip _ _ h ?_) h1 h2 h3 hcl'
      have : o.attrs.filter (fun a => a.typ == u) = [] := by
        apply List.filter_eq_nil_iff.2
        intro x hx hxu
        have := List.find?_eq_none.1 ha x hx
        exact this hxu
      rw [this]
      rfl
    · have ha' : o.find u = some a := ha
      have hb' : o'.find u = some b := hb
      rw [ha', hb']
      simp only
      have hen : nssEncrypt N (e.sub i) k 10000 a.value = nssEncrypt N (e.sub i) k 10000 b.value := by
        rcases hv with hv | ⟨_, hv⟩
        · rw [hv]
        · exact encrypt_same _ _ _ hv
      rw [← hen]
      generalize nssEncrypt N (e.sub i) k 10000 a.value = x
      obtain ⟨r, k1⟩ := x
      cases r with
      | error r => rfl
      | ok v =>
        simp only [setAttr_plain _ _ _ (hcl u (.head _))]
        refine ih (i + 1) k1 _ _ ?_ ?_ h1 h2 h3 hcl'
        · show ((Obj.setList o.attrs (Attr.ofBytes u v)).map Attr.typ).Nodup
          rw [types_setList, if_pos (show (Attr.ofBytes u v).typ ∈ _ from List.mem_map.2 ⟨a, List.mem_of_find?_eq_some ha, (by simpa using List.find?_some ha : a.typ = u)⟩)]
          exact hnd
        · exact sameBut_set h _ rfl (nodup_filter hnd u) (by rw [ha]; simp)

theorem sameBut_filter {ts : List Nat} (p : Nat → Bool) {l m : List Attr} (h : sameBut N ts l m) :
    sameBut N ts (l.filter fun a => p a.typ) (m.filter fun a => p a.typ) := by
  induction l generalizing m with
  | nil =>
    cases m with
    | nil => trivial
    | cons b m => exact absurd h id
  | cons a l ih =>
    cases m with
    | nil => exact absurd h id
    | cons b m =>
      obtain ⟨h1, h2, h3, h4⟩ := h
      rw [List.filter_cons, List.filter_cons, h1]
      split
      · exact ⟨h1, h2, h3, ih h4⟩
      · exact ih h4

theorem delAll_same {ts : List Nat} : ∀ (l : List Nat) (o o' : Obj), (o.attrs.map Attr.typ).Nodup → sameBut N ts o.attrs o'.attrs → o.handle = o'.handle →
    o.session = o'.session → o.cls = o'.cls → ((delAll o l).attrs.map Attr.typ).Nodup ∧ sameBut N ts (delAll o l).attrs (delAll o' l).attrs ∧
      (delAll o l).handle = (delAll o' l).handle ∧ (delAll o l).session = (delAll o' l).session ∧ (delAll o l).cls = (delAll o' l).cls := by
  intro l
  induction l with
  | nil => intro o o' h1 h2 h3 h4 h5; exact ⟨h1, h2, h3, h4, h5⟩
  | cons u l ih =>
    intro o o' h1 h2 h3 h4 h5
    refine ih (o.delAttr u) (o'.delAttr u) ?_ ?_ h3 h4 h5
    · exact h1.sublist (List.filter_sublist.map _)
    · exact sameBut_filter (fun t => t != u) h2

/-- **C69 (partial).**  What is stored of a private or secret key depends on its secret values only through their ciphertexts: two keys that differ in nothing
else leave the same database (and the same answer, keys and handles). -/
theorem C69_secret_partial (e : Env) (s : Nss) (hs : Handles) (o o' : Obj) (cls : Nat) (hcl : o.getUlong CKA_CLASS = .ok cls)
    (hk : cls = CKO_PRIVATE_KEY ∨ cls = CKO_SECRET_KEY) (hnd : (o.attrs.map Attr.typ).Nodup) (h : sameBut N nssSecrets o.attrs o'.attrs)
    (h1 : o.handle = o'.handle) (h2 : o.session = o'.session) (h3 : o.cls = o'.cls) : s.store N e hs o = s.store N e hs o' := by
  have hfind : ∀ u ∈ kindTypes, o.find u = o'.find u := by
    intro u hu
    rcases sameBut_find h u with ⟨a, b⟩ | ⟨a, b, ha, hb, hta, htb, hk, hv⟩
    · exact a.trans b.symm
    · have hns : u ∉ nssSecrets := by
        have := secretsOf_facts .priv u
        intro hx
        exact (this hx).1 hu
      rcases hv with hv | ⟨hv, _⟩
      · refine (show o.find u = some a from ha).trans (Eq.trans ?_ (show o'.find u = some b from hb).symm)
        obtain ⟨t, k, v⟩ := a
        obtain ⟨t', k', v'⟩ := b
        simp only at hta htb hk hv
        subst hta; subst htb; subst hk; subst hv
        rfl
      · exact absurd hv hns
  have hcl' : o'.getUlong CKA_CLASS = .ok cls := by
    rw [← hcl]
    unfold Obj.getUlong
    rw [hfind _ (by decide)]
  have hF : objFactory o = objFactory o' := objFactory_congr (hfind _ (by decide)) (hfind _ (by decide)) (hfind _ (by decide))
  have ht : nssTblOf cls = some .priv := by unfold nssTblOf; rw [if_pos hk]
  unfold Nss.store
  simp only [hcl, hcl', ht, ← hF]
  cases hFo : objFactory o with
  | error r => rfl
  | ok F =>
    simp only
    obtain ⟨g1, g2, g3, g4, g5⟩ := delAll_same F.ephemeral o o' hnd h h1 h2 h3
    simp only [if_true]
    rw [encLoop_same (N := N) (e.sub 0) nssSecrets 0 s.keys _ _ g1 g2 g3 g4 g5
      (fun t ht hc => (secretsOf_facts .priv t ht).1 (by rw [hc]; decide))]

/-! ## Signatures -/

theorem checkSig_ok {e : Env} {m : Bytes} {k : NssKeys} (h : keysOf N m k) (value x : Bytes) (id typ : Nat) :
    keysOf N m (nssCheckSig N e k value x id typ).2 ∧ ((nssCheckSig N e k value x id typ).1 = .ok () →
      ∃ p i n sig, N.parse x = some ⟨.pbmac1 (some p) true, sig⟩ ∧ sig ≠ [] ∧ sig.length ≤ 32 ∧
        (N.mac (N.kdf m p.salt i n) (toBE 4 id ++ (toBE 4 typ ++ value))).take sig.length = sig) := by
  unfold nssCheckSig
  split
  · exact ⟨h, fun hc => by cases hc⟩
  · rename_i p hmac sig hp
    have a := keysOf_derive (e := e.sub 0) h p .sig
    generalize nssDeriveKey N (e.sub 0) k p .sig = y at a ⊢
    obtain ⟨r, k1⟩ := y
    cases r with
    | error r => exact ⟨a.1, fun hc => by cases hc⟩
    | ok key =>
      simp only at a ⊢
      obtain ⟨i, n, hkey⟩ := a.2 key rfl
      cases hmac with
      | false => exact ⟨a.1, fun hc => by cases hc⟩
      | true =>
        simp only [Bool.not_true, Bool.false_eq_true, if_false]
        split
        · exact ⟨keysOf_invalidate a.1 _, fun hc => by cases hc⟩
        · rename_i hv
          refine ⟨a.1, fun _ => ⟨p, i, n, sig, hp, ?_⟩⟩
          unfold nssHmacVerify at hv
          split at hv
          · cases hv
          rename_i hl
          split at hv
          · cases hv
          split at hv
          · cases hv
          split at hv
          · rename_i hm
            rw [hkey] at hm
            unfold nssMacText at hm
            rw [List.append_assoc] at hm
            exact ⟨fun hc => hl (.inl (by rw [hc]; rfl)), by omega, hm⟩
          · cases hv
  · exact ⟨h, fun hc => by cases hc⟩

theorem verLoop_signed {e : Env} {m : Bytes} {d : NssDb} {t : NssTbl} {id : Nat} {o : Obj} : ∀ (ts : List Nat) (i : Nat) (k : NssKeys), keysOf N m k →
    (nssVerLoop N e d t id o ts i k).1 = .ok () → ∀ u ∈ ts, ∀ a, o.find u = some a → signedBy N m d t id u a.value := by
  intro ts
  induction ts with
  | nil => intro i k _ _ u hu; cases hu
  | cons w ts ih =>
    intro i k hk hv u hu a ha
    rw [nssVerLoop] at hv
    cases hw : o.find w with
    | none =>
      simp only [hw] at hv
      rcases List.mem_cons.1 hu with hx | hx
      · subst hx; rw [hw] at ha; cases ha
      · exact ih _ _ hk hv u hx a ha
    | some b =>
      simp only [hw] at hv
      split at hv
      · cases hv
      rename_i x y hm
      have c := checkSig_ok (e := (e.sub i).sub 1) hk b.value x id w
      generalize nssCheckSig N ((e.sub i).sub 1) k b.value x id w = z at c hv
      obtain ⟨r, k1⟩ := z
      cases r with
      | error r => cases hv
      | ok v =>
        simp only at c hv
        rcases List.mem_cons.1 hu with hx | hx
        · subst hx
          rw [hw] at ha
          injection ha with ha; subst ha
          obtain ⟨p, j, n, sig, h1, h2, h3, h4⟩ := c.2 trivial
          refine ⟨(x, y), p, j, n, sig, ?_, h1, h2, h3, h4⟩
          unfold NssDb.fetchMeta at hm
          split at hm
          · cases hm
          · split at hm
            · cases hm
            · rename_i v hg
              injection hm with hm; subst hm
              exact hg
        · exact ih _ _ c.1 hv u hx a ha

theorem decLoop_keys {e : Env} {m : Bytes} : ∀ (ts : List Nat) (i : Nat) (k : NssKeys) (o : Obj), keysOf N m k → keysOf N m (nssDecLoop N e ts i k o).2 := by
  intro ts
  induction ts with
  | nil => intro i k o h; exact h
  | cons t ts ih =>
    intro i k o h
    rw [nssDecLoop]
    cases o.find t with
    | none => exact ih _ _ _ h
    | some a =>
      simp only
      have c := keysOf_decrypt (e := e.sub i) h a.value
      generalize nssDecrypt N (e.sub i) k a.value = z at c ⊢
      obtain ⟨r, k1⟩ := z
      cases r with
      | error r => exact c
      | ok v =>
        simp only at c ⊢
        split
        · exact c
        · exact ih _ _ _ c

theorem addBack_find (asked : List Nat) : ∀ (ts : List Nat) (o o' : Obj), nssAddBack asked ts o = .ok o' → ∀ t, t ∉ ts → o'.find t = o.find t := by
  intro ts
  induction ts with
  | nil => intro o o' h t _; injection h with h; subst h; rfl
  | cons u ts ih =>
    intro o o' h t ht
    have ht' : t ∉ ts := fun hx => ht (.tail _ hx)
    have htu : t ≠ u := fun hx => ht (hx ▸ .head _)
    rw [nssAddBack] at h
    split at h
    · cases h
    split at h
    · split at h
      · rename_i fa hfa
        split at h
        · split at h
          · cases h
          · rename_i o1 ho1
            rw [ih _ _ h t ht', find_setAttr ho1, if_neg]
            have : fa.typ = u := by simpa using List.find?_some hfa
            exact fun hx => htu (hx.symm.trans this)
        · exact ih _ _ h t ht'
      · exact ih _ _ h t ht'
    · exact ih _ _ h t ht'

/-- **C69 (partial).**  A logged-in user who reads an object is given no protected attribute whose signature, for this object and type, was not made with the
user's key. -/
theorem C69_verified_partial (e : Env) (m : Bytes) (s : Nss) (hs : Handles) (n : Nat) (attrs : Template) (o : Obj) (hk : keysOf N m s.keys)
    (h : (s.fetch N e hs n attrs).1 = .ok o) : ∃ uid t id, hs.get n = some uid ∧ nssIdParse uid = .ok (t, id) ∧
      ∀ u ∈ nssSigned, ∀ a, o.find u = some a → signedBy N m s.db t id u a.value := by
  unfold Nss.fetch at h
  split at h
  · cases h
  rename_i uid hu
  split at h
  · cases h
  rename_i t id hp
  refine ⟨uid, t, id, hu, hp, ?_⟩
  split at h
  · cases h
  split at h
  · cases h
  rename_i o1 ho1
  simp only [hk.1, Option.isSome_some, if_true] at h
  have c := decLoop_keys (e := e.sub 1) (if t = .priv then nssSecrets else []) 0 s.keys o1 hk
  generalize nssDecLoop N (e.sub 1) (if t = .priv then nssSecrets else []) 0 s.keys o1 = z at c h
  obtain ⟨r, k1⟩ := z
  cases r with
  | error r => cases h
  | ok o2 =>
    simp only at c h
    have v := verLoop_signed (e := e.sub 2) (d := s.db) (t := t) (id := id) (o := o2) nssSigned 0 k1 c
    generalize nssVerLoop N (e.sub 2) s.db t id o2 nssSigned 0 k1 = z at v h
    obtain ⟨r, k2⟩ := z
    cases r with
    | error r => cases h
    | ok w =>
      simp only at v h
      split at h
      · cases h
      rename_i o3 ho3
      injection h with h; subst h
      intro u hu a ha
      have hns : ∀ u ∈ nssSigned, u ∉ nssSkipped := by decide +kernel
      refine v trivial u hu a ?_
      rw [← addBack_find _ _ _ _ ho3 u (hns u hu)]
      exact ha

/-! ## What is not protected -/

/-- **C69 is violated.**  While no user is logged in nothing is decrypted or checked: objects are read in the same way whatever the signatures and the
cryptography. -/
theorem C69_loggedout_violation (N' : NssLib) (e : Env) (s : Nss) (hs : Handles) (n : Nat) (attrs : Template) (md : List (NssMeta × (Bytes × Bytes)))
    (h : s.keys.enckey = none) : (s.fetch N e hs n attrs).1 = (Nss.fetch N' e { s with db := { s.db with mdata := md } } hs n attrs).1 := by
  have hby : ∀ e t id c, NssDb.fetchById e { s.db with mdata := md } t id c = s.db.fetchById e t id c := by
    intro e t id c
    cases t <;> rfl
  unfold Nss.fetch
  simp only [h, hby, Option.isSome_none, Bool.false_eq_true, if_false]
  repeat' split
  all_goals simp_all

/-- **C69 is violated.**  Whoever does not know the key can sign any value with one byte: one of the 256 signatures of one byte is accepted. -/
theorem C69_short_violation (hN : NssOk N) (e : Env) (he : calmEnv e) (m salt : Bytes) (hsl : salt.length = 32) (k : NssKeys)
    (hk : fits N m (fun op x => op = .sig ∧ x = salt) k) (value : Bytes) (id typ : Nat) : ∃ b : UInt8, (nssCheckSig N e k value (N.der ⟨.pbmac1 (some ⟨salt, 10000, some 32⟩) true, [b]⟩) id typ).1 = .ok () := by
  have hl := hN.mac_len (N.kdf m salt 10000 32) (nssMacText id typ value)
  cases hm : N.mac (N.kdf m salt 10000 32) (nssMacText id typ value) with
  | nil => rw [hm] at hl; cases hl
  | cons b l =>
    refine ⟨b, ?_⟩
    obtain ⟨k1, h1, h2⟩ := fits_derive (fun x h _ => by cases h.1) (calm_sub he 0) (op := .sig) hk ⟨rfl, rfl⟩ hsl
    unfold nssCheckSig
    rw [hN.parse_der]
    simp only [h1, Bool.not_true, Bool.false_eq_true, if_false]
    unfold nssHmacVerify
    simp only [List.length_cons, List.length_nil, calm_fails (calm_sub he 1), hm]
    simp

/-! ## Witnesses -/

/-- A cipher whose texts tell only the length. -/
def exNssBlind : NssLib := { exNss with enc := fun _ iv p => iv ++ List.replicate p.length 0 }

/-- A key with this value. -/
def exNssVal (v : Bytes) : Obj := ⟨0, 0, CKO_SECRET_KEY, [Attr.ofUlong CKA_CLASS CKO_SECRET_KEY, Attr.ofUlong CKA_KEY_TYPE CKK_AES,
  Attr.ofBool CKA_TOKEN true, Attr.ofBytes CKA_VALUE v, Attr.ofBytes CKA_MODULUS [5, 6, 7]]⟩

/-- Witness of `C69_secret_partial`: two keys of 16 bytes. -/
theorem C69_secret_witness : exNssIn.store exNssBlind (exPlaces 9) Handles.new (exNssVal (List.replicate 16 1)) =
    exNssIn.store exNssBlind (exPlaces 9) Handles.new (exNssVal (List.replicate 16 2)) := by
  refine C69_secret_partial (N := exNssBlind) (exPlaces 9) exNssIn Handles.new _ _ CKO_SECRET_KEY (by decide +kernel) (.inr rfl) (by decide +kernel) ?_ rfl rfl rfl
  exact ⟨rfl, rfl, .inl rfl, rfl, rfl, .inl rfl, rfl, rfl, .inl rfl, rfl, rfl, .inr ⟨by decide +kernel, fun _ _ => rfl⟩, rfl, rfl, .inl rfl, trivial⟩

set_option maxRecDepth 20000 in
/-- That store succeeds; with the other cipher the two databases differ. -/
theorem C69_secret_witness2 : (exNssIn.store exNssBlind (exPlaces 9) Handles.new (exNssVal (List.replicate 16 1))).1 = .ok 1 ∧
    (exNssIn.store exNss (exPlaces 9) Handles.new (exNssVal [1])).2.1.db ≠ (exNssIn.store exNss (exPlaces 9) Handles.new (exNssVal [2])).2.1.db := by
  decide +kernel

/-- Two keys in the database. -/
def exNssTwo : Nss × Handles :=
  let x := exNssIn.store exNss (exPlaces 9) Handles.new (exNssVal [1])
  (x.2.1.store exNss (exPlaces 77) x.2.2 (exNssVal [2])).2

/-- The same database, altered by whoever can write the file. -/
def exNssAlter (f : List (Nat × NssRow) → List (Nat × NssRow)) : Nss := { exNssTwo.1 with db := { exNssTwo.1.db with priv := f exNssTwo.1.db.priv } }

/-- What is read of the first key. -/
def exNssRead (s : Nss) (u : Nat) : Except Rv (Option Attr) :=
  (okNssObj (s.fetch exNss (exCalm 0) exNssTwo.2 1 []).1).map fun l => l.find? fun a => a.typ == u

/-- A column of the second row in place of that of the first. -/
def exNssSwap (u : Nat) (rows : List (Nat × NssRow)) : List (Nat × NssRow) :=
  match AMap.get rows 1, AMap.get rows 2 with
  | some a, some b => match AMap.get b u with
    | some v => AMap.insert rows 1 (AMap.insert a u v)
    | none => rows
  | _, _ => rows

theorem exNssTwo_keys : keysOf exNss (exNss.sha1 (List.replicate 20 7 ++ [97, 98, 99, 100])) exNssTwo.1.keys := by
  refine ⟨by decide +kernel, ?_⟩
  have h : ∀ p ∈ exNssTwo.1.keys.cache, p.2.2 = exNss.sha1 (List.replicate 20 7 ++ [97, 98, 99, 100]) ++ p.1 := by decide +kernel
  intro salt v hv
  exact ⟨0, 0, h (salt, v) (amap_get_mem hv)⟩

set_option maxRecDepth 20000 in
/-- Witness of `C69_verified_partial`: the keys at hand are the user's, and the signed attribute is read. -/
theorem C69_verified_witness : keysOf exNss (exNss.sha1 (List.replicate 20 7 ++ [97, 98, 99, 100])) exNssTwo.1.keys ∧ CKA_MODULUS ∈ nssSigned ∧
    exNssRead exNssTwo.1 CKA_MODULUS = .ok (some (Attr.ofBytes CKA_MODULUS [5, 6, 7])) ∧
    exNssRead exNssTwo.1 CKA_VALUE = .ok (some (Attr.ofBytes CKA_VALUE [1])) :=
  ⟨exNssTwo_keys, by decide +kernel, by decide +kernel, by decide +kernel⟩

set_option maxRecDepth 20000 in
/-- **C69 is violated.**  An altered modulus is noticed; but the modulus may be removed, the value of another key may be put in place of the value, and any
attribute that is not signed may be altered. -/
theorem C69_alter_violation :
    exNssRead (exNssAlter fun r => AMap.modify r 1 fun row => AMap.insert row CKA_MODULUS [5, 6, 8]) CKA_MODULUS = .error .signatureInvalid ∧
    exNssRead (exNssAlter fun r => AMap.modify r 1 fun row => AMap.erase row CKA_MODULUS) CKA_MODULUS = .ok none ∧
    exNssRead (exNssAlter (exNssSwap CKA_VALUE)) CKA_VALUE = .ok (some (Attr.ofBytes CKA_VALUE [2])) ∧
    exNssRead (exNssAlter fun r => AMap.modify r 1 fun row => AMap.insert row CKA_EXTRACTABLE [1]) CKA_EXTRACTABLE =
      .ok (some (Attr.ofBool CKA_EXTRACTABLE true)) := by
  decide +kernel

set_option maxRecDepth 20000 in
/-- Witness of `C69_loggedout_violation`: after logout the ciphertext is read as the value of the key. -/
theorem C69_loggedout_witness : exNssTwo.1.unauthUser.keys.enckey = none ∧
    exNssRead exNssTwo.1.unauthUser CKA_VALUE = .ok (some (Attr.ofBytes CKA_VALUE (((AMap.get exNssTwo.1.db.priv 1).bind fun r => AMap.get r CKA_VALUE).getD []))) ∧
    exNssRead exNssTwo.1.unauthUser CKA_VALUE ≠ .ok (some (Attr.ofBytes CKA_VALUE [1])) := by
  decide +kernel

/-- Witness of `C69_short_violation`. -/
theorem C69_short_witness (value : Bytes) (id typ : Nat) :
    ∃ b : UInt8, (nssCheckSig exNss (exCalm 0) exNssIn.keys value (exNss.der ⟨.pbmac1 (some ⟨List.replicate 32 1, 10000, some 32⟩) true, [b]⟩) id typ).1 = .ok () := by
  have h1 : exNssIn.keys.enckey = some (exNss.sha1 (List.replicate 20 7 ++ [97, 98, 99, 100])) := by decide +kernel
  have h2 : AMap.get exNssIn.keys.cache (List.replicate 32 1) = none := by decide +kernel
  refine C69_short_violation exNss_ok (exCalm 0) (exCalm_ok 0) _ (List.replicate 32 1) rfl exNssIn.keys ⟨h1, ?_⟩ value id typ
  rintro op salt v ⟨_, hs⟩ hv
  subst hs
  rw [h2] at hv; cases hv

end Kry
