import Verif.Proofs.NssRows
import Verif.Props.C67

/-! Encryption and signatures of the attributes in an NSS database. -/

namespace Kry

open Spec (calmEnv NssOk fits)

variable {N : NssLib}

theorem fits_derive {S : NssKeyOp → Bytes → Prop} (ap : ∀ salt, S .enc salt → S .sig salt → False) {e : Env} (he : calmEnv e) {m salt : Bytes} {k : NssKeys}
    {op : NssKeyOp} (hf : fits N m S k) (hs : S op salt) (hl : salt.length = 32) :
    ∃ k', nssDeriveKey N e k ⟨salt, 10000, some 32⟩ op = (.ok (op, N.kdf m salt 10000 32), k') ∧ fits N m S k' := by
  cases hc : AMap.get k.cache salt with
  | some v =>
    have := hf.2 op salt v hs hc
    subst this
    exact ⟨k, derive_cached (p := ⟨salt, 10000, some 32⟩) hl (by rw [hf.1]; rfl) hc, hf⟩
  | none =>
    refine ⟨_, derive_fresh (p := ⟨salt, 10000, some 32⟩) he hl hf.1 hc rfl, hf.1, ?_⟩
    intro op' salt' v hs' hv
    by_cases hne : salt' = salt
    · subst hne
      rw [setCached_get] at hv
      injection hv with hv; subst hv
      have : op' = op := by
        cases op' <;> cases op <;> first | rfl | (exact absurd (ap _ hs hs') id) | (exact absurd (ap _ hs' hs) id)
      rw [this]
    · exact hf.2 op' salt' v hs' (setCached_ne hne hv)

/-- An encrypted value. -/
def nssBlob (N : NssLib) (m salt iv v : Bytes) : Bytes :=
  N.der ⟨.pbes2 (some ⟨salt, 10000, some 32⟩) (some iv), N.enc (N.kdf m salt 10000 32) (4 :: 14 :: iv) v⟩

/-- A signature. -/
def nssSigBlob (N : NssLib) (m salt : Bytes) (id t : Nat) (v : Bytes) : Bytes :=
  N.der ⟨.pbmac1 (some ⟨salt, 10000, some 32⟩) true, N.mac (N.kdf m salt 10000 32) (nssMacText id t v)⟩

theorem fits_encrypt {S : NssKeyOp → Bytes → Prop} (ap : ∀ salt, S .enc salt → S .sig salt → False) {e : Env} (he : calmEnv e) {m : Bytes} {k : NssKeys}
    (hf : fits N m S k) (hs : S .enc ((e.sub 0).rnd 32)) (v : Bytes) :
    ∃ k', nssEncrypt N e k 10000 v = (.ok (nssBlob N m ((e.sub 0).rnd 32) ((e.sub 2).rnd 14) v), k') ∧ fits N m S k' := by
  obtain ⟨k', hd, hf'⟩ := fits_derive ap (calm_sub he 1) hf hs (rnd_length _ _)
  refine ⟨k', ?_, hf'⟩
  unfold nssEncrypt
  simp only [calm_fails (calm_sub he 0), hd, calm_fails (calm_sub he 2)]
  rw [if_neg (by simp)]
  rfl

theorem fits_decrypt (hN : NssOk N) {S : NssKeyOp → Bytes → Prop} (ap : ∀ salt, S .enc salt → S .sig salt → False) {e : Env} (he : calmEnv e) {m salt iv : Bytes}
    {k : NssKeys} (hf : fits N m S k) (hs : S .enc salt) (hl : salt.length = 32) (hi : iv.length = 14) (v : Bytes) :
    ∃ k', nssDecrypt N e k (nssBlob N m salt iv v) = (.ok v, k') ∧ fits N m S k' := by
  obtain ⟨k', hd, hf'⟩ := fits_derive ap (calm_sub he 0) hf hs hl
  refine ⟨k', ?_, hf'⟩
  unfold nssBlob
  rw [decrypt_calm he (hN.parse_der _) (iv' := 4 :: 14 :: iv) (by unfold nssIv; rw [if_pos hi]) hd, hN.dec_enc]

theorem fits_sign {S : NssKeyOp → Bytes → Prop} (ap : ∀ salt, S .enc salt → S .sig salt → False) {e : Env} (he : calmEnv e) {m : Bytes} {k : NssKeys}
    (hf : fits N m S k) (hs : S .sig ((e.sub 0).rnd 32)) (v : Bytes) (id t : Nat) :
    ∃ k', nssMakeSig N e k v id t 10000 = (.ok (nssSigBlob N m ((e.sub 0).rnd 32) id t v), k') ∧ fits N m S k' := by
  obtain ⟨k', hd, hf'⟩ := fits_derive ap (calm_sub he 1) hf hs (rnd_length _ _)
  refine ⟨k', ?_, hf'⟩
  unfold nssMakeSig
  simp only [calm_fails (calm_sub he 0), hd, calm_fails (calm_sub he 2)]
  rw [if_neg (by simp)]
  rfl

theorem fits_verify (hN : NssOk N) {S : NssKeyOp → Bytes → Prop} (ap : ∀ salt, S .enc salt → S .sig salt → False) {e : Env} (he : calmEnv e) {m salt : Bytes}
    {k : NssKeys} (hf : fits N m S k) (hs : S .sig salt) (hl : salt.length = 32) (v : Bytes) (id t : Nat) :
    ∃ k', nssCheckSig N e k v (nssSigBlob N m salt id t v) id t = (.ok (), k') ∧ fits N m S k' := by
  obtain ⟨k', hd, hf'⟩ := fits_derive ap (calm_sub he 0) hf hs hl
  refine ⟨k', ?_, hf'⟩
  unfold nssCheckSig
  rw [show N.parse (nssSigBlob N m salt id t v) = _ from hN.parse_der _]
  simp only [hd, Bool.not_true, Bool.false_eq_true, if_false]
  have : nssHmacVerify N (e.sub 1) (.sig, N.kdf m salt 10000 32) id t v (N.mac (N.kdf m salt 10000 32) (nssMacText id t v)) = .ok () := by
    unfold nssHmacVerify
    have hl := hN.mac_len (N.kdf m salt 10000 32) (nssMacText id t v)
    rw [if_neg (by omega), if_neg (by simp)]
    simp only [calm_fails (calm_sub he 1), List.take_length, if_true]
  rw [this]

theorem setAttr_plain (o : Obj) (t : Nat) (v : Bytes) (h : t ≠ CKA_CLASS) :
    o.setAttr (Attr.ofBytes t v) = .ok { o with attrs := Obj.setList o.attrs (Attr.ofBytes t v) } := by
  unfold Obj.setAttr
  exact if_neg h

theorem encLoop_ok {S : NssKeyOp → Bytes → Prop} (ap : ∀ salt, S .enc salt → S .sig salt → False) {e : Env} (he : calmEnv e) {m : Bytes} :
    ∀ (ts : List Nat) (i : Nat) (k : NssKeys) (o : Obj), ts.Nodup → (∀ t ∈ ts, t ≠ CKA_CLASS) → fits N m S k →
    (∀ j, i ≤ j → j < i + ts.length → S .enc (((e.sub j).sub 0).rnd 32)) →
    ∃ o' k', nssEncLoop N e ts i k o = (.ok o', k') ∧ fits N m S k' ∧ (∀ t, t ∉ ts → o'.find t = o.find t) ∧
      (∀ t, o.find t = none → o'.find t = none) ∧
      (∀ t ∈ ts, ∀ a, o.find t = some a → ∃ salt iv, S .enc salt ∧ salt.length = 32 ∧ iv.length = 14 ∧
        o'.find t = some (Attr.ofBytes t (nssBlob N m salt iv a.value))) := by
  intro ts
  induction ts with
  | nil => intro i k o _ _ hf _; exact ⟨o, k, rfl, hf, fun _ _ => rfl, fun _ h => h, fun t ht => by cases ht⟩
  | cons u ts ih =>
    intro i k o hnd hcl hf hS
    have hu := (List.nodup_cons.1 hnd).1
    have hnd := (List.nodup_cons.1 hnd).2
    have hcl' : ∀ t ∈ ts, t ≠ CKA_CLASS := fun t ht => hcl t (.tail _ ht)
    have hS' : ∀ j, i + 1 ≤ j → j < i + 1 + ts.length → S .enc (((e.sub j).sub 0).rnd 32) := by
      intro j h1 h2
      exact hS j (by omega) (by rw [List.length_cons]; omega)
    rw [nssEncLoop]
    cases hfi : o.find u with
    | none =>
      obtain ⟨o', k', h1, h2, h3, h4, h5⟩ := ih (i + 1) k o hnd hcl' hf hS'
      refine ⟨o', k', h1, h2, fun t ht => h3 t (fun hm => ht (.tail _ hm)), h4, fun t ht a ha => ?_⟩
      rcases List.mem_cons.1 ht with h | h
      · subst h; rw [hfi] at ha; cases ha
      · exact h5 t h a ha
    | some a =>
      obtain ⟨k1, hen, hf1⟩ := fits_encrypt (N := N) ap (calm_sub he i) hf (hS i (Nat.le_refl _) (by rw [List.length_cons]; omega)) a.value
      have hset := setAttr_plain o u (nssBlob N m (((e.sub i).sub 0).rnd 32) (((e.sub i).sub 2).rnd 14) a.value) (hcl u (.head _))
      simp only [hen, hset]
      obtain ⟨o', k', h1, h2, h3, h4, h5⟩ := ih (i + 1) k1 _ hnd hcl' hf1 hS'
      have hfs := find_setAttr hset
      refine ⟨o', k', h1, h2, fun t ht => ?_, fun t ht => ?_, fun t ht b hb => ?_⟩
      · rw [h3 t (fun hm => ht (.tail _ hm)), hfs, if_neg (by intro hx; exact ht (by rw [← hx]; exact .head _))]
      · refine h4 t ?_
        rw [hfs, if_neg ?_]
        · exact ht
        · intro hx
          have hx : u = t := hx
          subst hx
          rw [hfi] at ht; cases ht
      · by_cases htu : u = t
        · subst htu
          rw [hfi] at hb
          injection hb with hb; subst hb
          refine ⟨_, ((e.sub i).sub 2).rnd 14, hS i (Nat.le_refl _) (by rw [List.length_cons]; omega), rnd_length _ _, rnd_length _ _, ?_⟩
          rw [h3 u hu, hfs]
          exact if_pos rfl
        · rcases List.mem_cons.1 ht with h | h
          · exact absurd h.symm htu
          · refine h5 t h b ?_
            rw [hfs]
            exact (if_neg htu).trans hb

theorem decLoop_ok (hN : NssOk N) {S : NssKeyOp → Bytes → Prop} (ap : ∀ salt, S .enc salt → S .sig salt → False) {e : Env} (he : calmEnv e) {m : Bytes}
    (w : Nat → Bytes) : ∀ (ts : List Nat) (i : Nat) (k : NssKeys) (o : Obj), ts.Nodup → (∀ t ∈ ts, t ≠ CKA_CLASS) → fits N m S k → ClsOk o →
    (∀ t ∈ ts, ∀ b, o.find t = some b → ∃ salt iv, S .enc salt ∧ salt.length = 32 ∧ iv.length = 14 ∧ b.value = nssBlob N m salt iv (w t)) →
    ∃ o' k', nssDecLoop N e ts i k o = (.ok o', k') ∧ fits N m S k' ∧ ClsOk o' ∧
      ∀ t, o'.find t = if t ∈ ts ∧ (o.find t).isSome = true then some (Attr.ofBytes t (w t)) else o.find t := by
  intro ts
  induction ts with
  | nil => intro i k o _ _ hf hc _; exact ⟨o, k, rfl, hf, hc, fun t => by rw [if_neg (by simp)]⟩
  | cons u ts ih =>
    intro i k o hnd hcl hf hc hb
    have hu := (List.nodup_cons.1 hnd).1
    have hnd := (List.nodup_cons.1 hnd).2
    have hcl' : ∀ t ∈ ts, t ≠ CKA_CLASS := fun t ht => hcl t (.tail _ ht)
    rw [nssDecLoop]
    cases hfi : o.find u with
    | none =>
      obtain ⟨o', k', h1, h2, h3, h4⟩ := ih (i + 1) k o hnd hcl' hf hc (fun t ht => hb t (.tail _ ht))
      refine ⟨o', k', h1, h2, h3, fun t => ?_⟩
      rw [h4]
      by_cases htu : t = u
      · subst htu; simp [hfi]
      · simp [htu]
    | some b =>
      obtain ⟨salt, iv, hs, hl, hi, hv⟩ := hb u (.head _) b hfi
      obtain ⟨k1, hde, hf1⟩ := fits_decrypt hN ap (calm_sub he i) hf hs hl hi (w u)
      have hset := setAttr_plain o u (w u) (hcl u (.head _))
      simp only [hv, hde, hset]
      have hfs := find_setAttr hset
      obtain ⟨o', k', h1, h2, h3, h4⟩ := ih (i + 1) k1 _ hnd hcl' hf1 (clsOk_setAttr hc hset) (by
        intro t ht b' hb'
        rw [hfs, if_neg (by intro hx; exact hu (by rw [show u = t from hx]; exact ht))] at hb'
        exact hb t (.tail _ ht) b' hb')
      refine ⟨o', k', h1, h2, h3, fun t => ?_⟩
      rw [h4, hfs]
      by_cases htu : u = t
      · subst htu
        simp [hu, hfi, Attr.ofBytes]
      · have : ¬ t = u := fun e => htu e.symm
        have h6 : ¬ (Attr.ofBytes u (w u)).typ = t := htu
        simp [this, h6]

theorem sigLoop_ok {S : NssKeyOp → Bytes → Prop} (ap : ∀ salt, S .enc salt → S .sig salt → False) {e : Env} (he : calmEnv e) {m : Bytes} (tbl : NssTbl) (id : Nat)
    (val : Nat → Option Bytes) : ∀ (ts : List Nat) (i : Nat) (k : NssKeys) (d : NssDb), ts.Nodup → fits N m S k →
    (∀ j, i ≤ j → j < i + ts.length → S .sig ((((e.sub j).sub 0).sub 0).rnd 32)) →
    ∃ d' k', nssSigLoop N e tbl id val ts i k d = (.ok d', k') ∧ fits N m S k' ∧ d'.pub = d.pub ∧ d'.priv = d.priv ∧
      (∀ n, (∀ t ∈ ts, n ≠ .sig tbl id t) → AMap.get d'.mdata n = AMap.get d.mdata n) ∧
      (∀ t ∈ ts, ∀ v, val t = some v → ∃ salt, S .sig salt ∧ salt.length = 32 ∧
        AMap.get d'.mdata (.sig tbl id t) = some (nssSigBlob N m salt id t v, [])) := by
  intro ts
  induction ts with
  | nil => intro i k d _ hf _; exact ⟨d, k, rfl, hf, rfl, rfl, fun _ _ => rfl, fun t ht => by cases ht⟩
  | cons u ts ih =>
    intro i k d hnd hf hS
    have hu := (List.nodup_cons.1 hnd).1
    have hnd := (List.nodup_cons.1 hnd).2
    have hS' : ∀ j, i + 1 ≤ j → j < i + 1 + ts.length → S .sig ((((e.sub j).sub 0).sub 0).rnd 32) := by
      intro j h1 h2
      exact hS j (by omega) (by rw [List.length_cons]; omega)
    rw [nssSigLoop]
    cases hv : val u with
    | none =>
      obtain ⟨d', k', h1, h2, h3, h4, h5, h6⟩ := ih (i + 1) k d hnd hf hS'
      refine ⟨d', k', h1, h2, h3, h4, fun n hn => h5 n (fun t ht => hn t (.tail _ ht)), fun t ht v hv' => ?_⟩
      rcases List.mem_cons.1 ht with h | h
      · subst h; rw [hv] at hv'; cases hv'
      · exact h6 t h v hv'
    | some v =>
      obtain ⟨k1, hsg, hf1⟩ := fits_sign (N := N) ap (calm_sub (calm_sub he i) 0) hf (hS i (Nat.le_refl _) (by rw [List.length_cons]; omega)) v id u
      have hsv : d.saveMeta ((e.sub i).sub 1) (.sig tbl id u) (nssSigBlob N m ((((e.sub i).sub 0).sub 0).rnd 32) id u v, []) =
          .ok { d with mdata := AMap.insert d.mdata (.sig tbl id u) (nssSigBlob N m ((((e.sub i).sub 0).sub 0).rnd 32) id u v, []) } := by
        unfold NssDb.saveMeta
        rw [calm_fails (calm_sub (calm_sub he i) 1)]
      simp only [hsg, hsv]
      obtain ⟨d', k', h1, h2, h3, h4, h5, h6⟩ := ih (i + 1) k1 { d with mdata := AMap.insert d.mdata (.sig tbl id u) (nssSigBlob N m ((((e.sub i).sub 0).sub 0).rnd 32) id u v, []) } hnd hf1 hS'
      refine ⟨d', k', h1, h2, h3, h4, fun n hn => ?_, fun t ht v' hv' => ?_⟩
      · rw [h5 n (fun t ht => hn t (.tail _ ht))]
        rw [AMap.get_insert, if_neg (hn u (.head _)).symm]
      · by_cases htu : t = u
        · subst htu
          rw [hv] at hv'
          injection hv' with hv'; subst hv'
          refine ⟨_, hS i (Nat.le_refl _) (by rw [List.length_cons]; omega), rnd_length _ _, ?_⟩
          rw [h5 _ (fun t' ht' hx => by injection hx with _ _ hx; subst hx; exact hu ht')]
          exact amap_get_insert _ _ _
        · rcases List.mem_cons.1 ht with h | h
          · exact absurd h htu
          · exact h6 t h v' hv'

theorem verLoop_ok (hN : NssOk N) {S : NssKeyOp → Bytes → Prop} (ap : ∀ salt, S .enc salt → S .sig salt → False) {e : Env} (he : calmEnv e) {m : Bytes} (d : NssDb)
    (tbl : NssTbl) (id : Nat) (o : Obj) : ∀ (ts : List Nat) (i : Nat) (k : NssKeys), fits N m S k →
    (∀ t ∈ ts, ∀ a, o.find t = some a → ∃ salt, S .sig salt ∧ salt.length = 32 ∧
      AMap.get d.mdata (.sig tbl id t) = some (nssSigBlob N m salt id t a.value, [])) →
    ∃ k', nssVerLoop N e d tbl id o ts i k = (.ok (), k') ∧ fits N m S k' := by
  intro ts
  induction ts with
  | nil => intro i k hf _; exact ⟨k, rfl, hf⟩
  | cons u ts ih =>
    intro i k hf h
    rw [nssVerLoop]
    cases hfi : o.find u with
    | none => exact ih (i + 1) k hf fun t ht => h t (.tail _ ht)
    | some a =>
      obtain ⟨salt, hs, hl, hg⟩ := h u (.head _) a hfi
      obtain ⟨k1, hv, hf1⟩ := fits_verify hN ap (calm_sub (calm_sub he i) 1) hf hs hl a.value id u
      have hm : d.fetchMeta ((e.sub i).sub 0) (.sig tbl id u) = .ok (nssSigBlob N m salt id u a.value, []) := by
        unfold NssDb.fetchMeta
        rw [calm_fails (calm_sub (calm_sub he i) 0)]
        simp only [hg]
      simp only [hm, hv]
      exact ih (i + 1) k1 hf1 fun t ht => h t (.tail _ ht)

end Kry
