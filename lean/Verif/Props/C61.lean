import Verif.Props.C60

/-!
# C61: the TLS "finished" message authentication code

`C61_mac`, `C61_sign`: whatever the parts, the result is PRF(master secret, label ++ data) of the length asked for.  `C61_verify`: the
verification accepts exactly that value.  `C61_done`: nothing works after the end.  `C61_zero_violation`: a length of 0 authenticates
nothing.  `C61_empty_violation`: a message given in no parts is refused.
-/

namespace Kry
open Spec

/-- Side 1 is the server, side 2 the client (PKCS#11, CK_TLS_MAC_PARAMS). -/
def Spec.finishedLabel (side : Nat) : Bytes := if side = 1 then text "server finished" else text "client finished"

theorem tlsMac_new {algs : Nat → HashAlg} {mech hash maclen side : Nat} {key : Obj} {o : TlsMac} (h : TlsMac.new algs mech hash maclen side key = .ok o) :
    (side = 1 ∨ side = 2) ∧ o.fin = false ∧ o.inUse = false ∧ o.outlen = maclen ∧ o.seed = finishedLabel side ∧
      ∃ v, key.getBytes CKA_VALUE = .ok v ∧ o.prf = Hmac.internal (algs (hash + 1)) v (algs (hash + 1)).hlen := by
  unfold TlsMac.new at h
  split at h
  · cases h
  · split at h
    · cases h
    · rename_i prf hp
      have hprf := hmac_next hp
      subst hprf
      by_cases s1 : side = 1
      · rw [if_pos s1] at h
        simp only at h
        split at h
        · cases h
        · rename_i op hop
          injection h with h; subst h
          refine ⟨Or.inl s1, rfl, rfl, rfl, ?_, tlsPrfInit_ok hop⟩
          show tlsServerFinished = _; unfold finishedLabel; rw [if_pos s1]; decide
      · rw [if_neg s1] at h
        by_cases s2 : side = 2
        · rw [if_pos s2] at h
          simp only at h
          split at h
          · cases h
          · rename_i op hop
            injection h with h; subst h
            refine ⟨Or.inr s2, rfl, rfl, rfl, ?_, tlsPrfInit_ok hop⟩
            show tlsClientFinished = _; unfold finishedLabel; rw [if_neg s1]; decide
        · rw [if_neg s2] at h
          cases h

theorem tlsMac_feed (o : TlsMac) (ho : o.fin = false) (parts : List Bytes) (hp : parts ≠ []) :
    o.feed parts = (.ok (), { o with inUse := true, seed := o.seed ++ parts.flatten }) := by
  induction parts generalizing o with
  | nil => exact absurd rfl hp
  | cons d l ih =>
    have e : o.feed (d :: l) = TlsMac.feed { o with inUse := true, seed := o.seed ++ d } l := by
      simp [TlsMac.feed, TlsMac.update, ho]
    rw [e]
    by_cases hl : l = []
    · subst hl; simp [TlsMac.feed]
    · rw [ih { o with inUse := true, seed := o.seed ++ d } ho hl]
      simp [List.append_assoc]

/-- What the operation computes once data has been given. -/
theorem tlsMac_end {algs : Nat → HashAlg} {mech hash maclen side : Nat} {key : Obj} {o : TlsMac} {secret : Bytes}
    (h : TlsMac.new algs mech hash maclen side key = .ok o) (ha : HashOk (algs (hash + 1))) (h0 : 0 < (algs (hash + 1)).hlen)
    (hs : value key CKA_VALUE = some secret)
    (hn : (maclen + (algs (hash + 1)).hlen - 1) / (algs (hash + 1)).hlen * (algs (hash + 1)).hlen < 2 ^ 63) (data : Bytes) :
    ∃ out, ({ o with inUse := true, seed := o.seed ++ data } : TlsMac).finalize maclen =
        (.ok out, { o with inUse := true, fin := true, seed := o.seed ++ data }) ∧ out.length = maclen ∧
      IsPrf (algs (hash + 1)) secret (finishedLabel side ++ data) out := by
  obtain ⟨_, f, _, l, s, v, hv, hp⟩ := tlsMac_new h
  have := value_getBytes hv hs
  subst this
  obtain ⟨out, e, el, ep⟩ := C60_prf ha h0 v (finishedLabel side ++ data) maclen hn
  refine ⟨out, ?_, el, ep⟩
  unfold TlsMac.finalize
  simp only [f, l, s, hp, e]
  simp

/-- **C61**, signing: any parts, in any split, as long as there is one. -/
theorem C61_mac {algs : Nat → HashAlg} {mech hash maclen side : Nat} {key : Obj} {o : TlsMac} {secret : Bytes}
    (h : TlsMac.new algs mech hash maclen side key = .ok o) (ha : HashOk (algs (hash + 1))) (h0 : 0 < (algs (hash + 1)).hlen)
    (hs : value key CKA_VALUE = some secret)
    (hn : (maclen + (algs (hash + 1)).hlen - 1) / (algs (hash + 1)).hlen * (algs (hash + 1)).hlen < 2 ^ 63)
    (parts : List Bytes) (hp : parts ≠ []) :
    ∃ out, (o.feed parts).1 = .ok () ∧ ((o.feed parts).2.finalize maclen).1 = .ok out ∧ out.length = maclen ∧
      IsPrf (algs (hash + 1)) secret (finishedLabel side ++ parts.flatten) out := by
  obtain ⟨_, f, _⟩ := tlsMac_new h
  rw [tlsMac_feed o f parts hp]
  obtain ⟨out, e, el, ep⟩ := tlsMac_end h ha h0 hs hn parts.flatten
  exact ⟨out, rfl, by simp only; rw [e], el, ep⟩

/-- **C61**, signing at once. -/
theorem C61_sign {algs : Nat → HashAlg} {mech hash maclen side : Nat} {key : Obj} {o : TlsMac} {secret : Bytes}
    (h : TlsMac.new algs mech hash maclen side key = .ok o) (ha : HashOk (algs (hash + 1))) (h0 : 0 < (algs (hash + 1)).hlen)
    (hs : value key CKA_VALUE = some secret)
    (hn : (maclen + (algs (hash + 1)).hlen - 1) / (algs (hash + 1)).hlen * (algs (hash + 1)).hlen < 2 ^ 63) (data : Bytes) :
    ∃ out, (o.sign data maclen).1 = .ok out ∧ out.length = maclen ∧ IsPrf (algs (hash + 1)) secret (finishedLabel side ++ data) out := by
  obtain ⟨_, f, u, _⟩ := tlsMac_new h
  obtain ⟨out, e, el, ep⟩ := tlsMac_end h ha h0 hs hn data
  refine ⟨out, ?_, el, ep⟩
  have : o.sign data maclen = ({ o with inUse := true, seed := o.seed ++ data } : TlsMac).finalize maclen := by
    simp [TlsMac.sign, TlsMac.start, TlsMac.update, f, u]
  rw [this, e]

/-- **C61**, verification: in parts or at once, exactly the right value of exactly the right length is accepted; everything else is reported
as a wrong signature. -/
theorem C61_verify {algs : Nat → HashAlg} {mech hash maclen side : Nat} {key : Obj} {o : TlsMac} {secret : Bytes}
    (h : TlsMac.new algs mech hash maclen side key = .ok o) (ha : HashOk (algs (hash + 1))) (h0 : 0 < (algs (hash + 1)).hlen)
    (hs : value key CKA_VALUE = some secret)
    (hn : (maclen + (algs (hash + 1)).hlen - 1) / (algs (hash + 1)).hlen * (algs (hash + 1)).hlen < 2 ^ 63)
    (parts : List Bytes) (hp : parts ≠ []) (sig : Bytes) :
    (sig.length = maclen ∧ IsPrf (algs (hash + 1)) secret (finishedLabel side ++ parts.flatten) sig →
      ((o.feed parts).2.verifyFinal sig).1 = .ok () ∧ (o.verify parts.flatten sig).1 = .ok ()) ∧
    (¬ (sig.length = maclen ∧ IsPrf (algs (hash + 1)) secret (finishedLabel side ++ parts.flatten) sig) →
      ((o.feed parts).2.verifyFinal sig).1 = .error .signatureInvalid ∧ (o.verify parts.flatten sig).1 = .error .signatureInvalid) := by
  obtain ⟨_, f, u, l, _⟩ := tlsMac_new h
  obtain ⟨out, e, el, ep⟩ := tlsMac_end h ha h0 hs hn parts.flatten
  have h1 : (o.feed parts).2 = { o with inUse := true, seed := o.seed ++ parts.flatten } := by rw [tlsMac_feed o f parts hp]
  have h2 : o.verify parts.flatten sig = ({ o with inUse := true, seed := o.seed ++ parts.flatten } : TlsMac).verifyFinal sig := by
    simp [TlsMac.verify, TlsMac.start, TlsMac.update, f, u]
  have h3 : (({ o with inUse := true, seed := o.seed ++ parts.flatten } : TlsMac).verifyFinal sig).1 =
      if out ≠ sig then .error .signatureInvalid else .ok () := by
    subst l
    unfold TlsMac.verifyFinal
    simp only [e]
  rw [h1, h2, h3]
  constructor
  · rintro ⟨sl, sp⟩
    have := isPrf_unique ha (by omega) ep sp (by omega)
    simp [this]
  · intro hno
    have : out ≠ sig := by
      rintro rfl
      exact hno ⟨el, ep⟩
    simp [this]

/-- **C61**: once the value was asked for, whatever the outcome, the operation is over. -/
theorem C61_done (o : TlsMac) (n : Nat) (hu : o.inUse = true) (d s : Bytes) (m : Nat) :
    let o' := (o.finalize n).2
    (o'.update d).1 = .error .operationNotInitialized ∧ (o'.finalize m).1 = .error .operationNotInitialized ∧
    (o'.sign d m).1 = .error .operationNotInitialized ∧ (o'.verify d s).1 = .error .operationNotInitialized ∧
    (o'.verifyFinal s).1 = .error .operationNotInitialized := by
  have h : ((o.finalize n).2).fin = true ∧ ((o.finalize n).2).inUse = true := by
    unfold TlsMac.finalize
    split
    · rename_i hf; exact ⟨hf, hu⟩
    · simp only [hu, Bool.not_true, Bool.false_eq_true, if_false]
      split <;> exact ⟨rfl, rfl⟩
  intro o'
  have h : o'.fin = true ∧ o'.inUse = true := h
  simp [TlsMac.update, TlsMac.finalize, TlsMac.sign, TlsMac.verify, TlsMac.start, TlsMac.verifyFinal, h.1, h.2]

/-! ## Examples and violations -/

/-- The value for one message, client side, 4 bytes. -/
def exTlsMac (maclen : Nat) (f : TlsMac → Res Bytes) : Res Bytes :=
  match TlsMac.new (fun _ => exHash) CKM_TLS12_MAC CKM_SHA256 maclen 2 exTlsKey with
  | .error r => .error r
  | .ok o => f o

example : exTlsMac 5 (fun o => (o.sign [1, 2, 3] 5).1) = exTlsMac 5 (fun o => ((o.feed [[1], [], [2, 3]]).2.finalize 5).1) ∧
    (∃ b, exTlsMac 5 (fun o => (o.sign [1, 2, 3] 5).1) = .ok b ∧ b.length = 5 ∧
      exTlsMac 5 (fun o => ((o.feed [[1, 2], [3]]).2.verifyFinal b).1.map fun _ => []) = .ok [] ∧
      exTlsMac 5 (fun o => ((o.feed [[1, 2], [3]]).2.verifyFinal (b.take 4)).1.map fun _ => []) = .error .signatureInvalid) := by
  refine ⟨by decide +kernel, (exTlsMac 5 (fun o => (o.sign [1, 2, 3] 5).1)).toOption.getD [], ?_⟩
  decide +kernel

/-- The length of the parameter is not checked: with a length of 0 the empty value is accepted for every message and every secret. -/
theorem C61_zero_violation (algs : Nat → HashAlg) (mech hash side : Nat) (key : Obj) (o : TlsMac)
    (h : TlsMac.new algs mech hash 0 side key = .ok o) (ha : HashOk (algs (hash + 1))) (h0 : 0 < (algs (hash + 1)).hlen)
    (data : Bytes) : (o.verify data []).1 = .ok () := by
  obtain ⟨_, _, _, _, _, v, hv, _⟩ := tlsMac_new h
  have hs : ∃ w, value key CKA_VALUE = some w := by
    unfold Obj.getBytes at hv
    rw [value_eq]
    split at hv
    · cases hv
    · rename_i a ha
      exact ⟨a.value, by rw [ha]; rfl⟩
  obtain ⟨w, hw⟩ := hs
  have hn : (0 + (algs (hash + 1)).hlen - 1) / (algs (hash + 1)).hlen * (algs (hash + 1)).hlen < 2 ^ 63 := by
    rw [Nat.div_eq_of_lt (by omega)]; omega
  have := ((C61_verify h ha h0 hw hn [data] (by simp) []).1 ⟨rfl, fun n _ => List.nil_prefix⟩).2
  simpa using this

/-- Such an operation exists. -/
example : exTlsMac 0 (fun o => (o.verify [1, 2, 3] []).1.map fun _ => []) = .ok [] := by decide +kernel

/-- A message given in no parts cannot be signed, although the same message can be signed at once. -/
theorem C61_empty_violation : ∃ b, exTlsMac 5 (fun o => (o.sign [] 5).1) = .ok b ∧
    exTlsMac 5 (fun o => ((o.feed []).2.finalize 5).1) = .error .operationNotInitialized :=
  ⟨(exTlsMac 5 (fun o => (o.sign [] 5).1)).toOption.getD [], by decide +kernel, by decide +kernel⟩

end Kry
