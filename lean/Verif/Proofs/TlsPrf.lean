import Verif.Model.TlsKdf
import Verif.Props.C50

/-!
# The TLS 1.2 pseudo-random function

`prfFinish_spec`: on a new HMAC operation `prfFinish` computes P_hash of RFC 5246, section 5, cut to the requested length.
-/

namespace Kry
namespace Spec

/-- A(i) of RFC 5246, section 5. -/
def aChain (a : HashAlg) (secret seed : Bytes) : Nat → Bytes
  | 0 => seed
  | i + 1 => hmac a secret (aChain a secret seed i)

/-- The first `n` pieces of P_hash(secret, seed) of RFC 5246, section 5. -/
def pHash (a : HashAlg) (secret seed : Bytes) (n : Nat) : Bytes :=
  ((List.range n).map fun i => hmac a secret (aChain a secret seed (i + 1) ++ seed)).flatten

/-- `out` is what P_hash gives for its length: "P_hash can be iterated as many times as necessary to produce the required quantity of
data". -/
def IsPrf (a : HashAlg) (secret seed out : Bytes) : Prop := ∀ n, out.length ≤ n * a.hlen → out <+: pHash a secret seed n

end Spec

open Spec

theorem prf_hmac_length {a : HashAlg} (ha : HashOk a) (key msg : Bytes) : (hmac a key msg).length = a.hlen := ha.size _

theorem pHash_succ (a : HashAlg) (key seed : Bytes) (n : Nat) :
    pHash a key seed (n + 1) = pHash a key seed n ++ hmac a key (aChain a key seed (n + 1) ++ seed) := by
  unfold pHash
  rw [List.range_succ, List.map_append, List.flatten_append]
  simp

theorem pHash_length {a : HashAlg} (ha : HashOk a) (key seed : Bytes) (n : Nat) : (pHash a key seed n).length = n * a.hlen := by
  induction n with
  | zero => simp [pHash]
  | succ n ih => rw [pHash_succ, List.length_append, ih, prf_hmac_length ha, Nat.succ_mul]

theorem pHash_prefix (a : HashAlg) (key seed : Bytes) {n m : Nat} (h : n ≤ m) : pHash a key seed n <+: pHash a key seed m := by
  induction m with
  | zero => rw [Nat.le_zero.mp h]; exact List.prefix_rfl
  | succ m ih =>
    by_cases e : n = m + 1
    · rw [e]; exact List.prefix_rfl
    · exact (ih (by omega)).trans (by rw [pHash_succ]; exact List.prefix_append ..)

theorem take_prf {a : HashAlg} (ha : HashOk a) (key seed : Bytes) (n r : Nat) (h : r ≤ n * a.hlen) :
    ((pHash a key seed n).take r).length = r ∧ IsPrf a key seed ((pHash a key seed n).take r) := by
  have hl : ((pHash a key seed n).take r).length = r := by rw [List.length_take, pHash_length ha]; omega
  refine ⟨hl, ?_⟩
  intro m hm
  rw [hl] at hm
  by_cases e : n ≤ m
  · exact (List.take_prefix ..).trans (pHash_prefix a key seed e)
  · obtain ⟨x, hx⟩ := pHash_prefix a key seed (show m ≤ n by omega)
    rw [← hx, List.take_append_of_le_length (by rw [pHash_length ha]; omega)]
    exact List.take_prefix ..

/-- Two outputs of the same length are the same. -/
theorem isPrf_unique {a : HashAlg} (ha : HashOk a) (h0 : a.hlen ≠ 0) {key seed x y : Bytes} (hx : IsPrf a key seed x) (hy : IsPrf a key seed y)
    (h : x.length = y.length) : x = y := by
  have hm : x.length ≤ x.length * a.hlen := Nat.le_mul_of_pos_right _ (by omega)
  have p := hx x.length hm
  have q := hy x.length (by omega)
  rw [List.prefix_iff_eq_take] at p q
  rw [p, q, h]

/-- What stays the same in an HMAC operation. -/
structure HmacFor (a : HashAlg) (key : Bytes) (o : Hmac) : Prop where
  alg : o.alg = a
  keyIs : o.key = key
  outlen : o.outlen = a.hlen

theorem fed_reinit {a : HashAlg} (ha : HashOk a) {key : Bytes} {o : Hmac} (h : HmacFor a key o) : Fed a key a.hlen [] o.reinit := by
  unfold Hmac.reinit
  rw [h.alg, h.keyIs, h.outlen]
  exact fed_init ha key a.hlen _ _ _ _ rfl

theorem finalize_for {a : HashAlg} {key : Bytes} {o : Hmac} (h : HmacFor a key o) (n : Nat) : HmacFor a key (o.finalize n).2 := by
  unfold Hmac.finalize
  split
  · exact h
  · simp only
    split
    · exact ⟨h.alg, h.keyIs, h.outlen⟩
    · exact ⟨h.alg, h.keyIs, h.outlen⟩

theorem prfMac_spec {a : HashAlg} (ha : HashOk a) {key : Bytes} {o : Hmac} (h : Fed a key a.hlen [] o) (parts : List Bytes) :
    ∃ o', prfMac o parts = (.ok (hmac a key parts.flatten), o') ∧ HmacFor a key o' := by
  obtain ⟨h1, h2⟩ := fed_feed h parts
  unfold prfMac
  generalize o.feed parts = p at h1 h2
  obtain ⟨r, o1⟩ := p
  simp only at h1 h2
  subst h1
  simp only [h2.outlen]
  have f := (fed_final ha (Nat.le_refl _) h2).1
  have g := finalize_for ⟨h2.alg, h2.keyIs, h2.outlen⟩ a.hlen
  generalize o1.finalize a.hlen = p at f g
  obtain ⟨r, o2⟩ := p
  simp only at f g
  refine ⟨o2, ?_, g⟩
  rw [f, List.nil_append, List.take_of_length_le (by rw [prf_hmac_length ha]; exact Nat.le_refl _)]

/-- `i` pieces do not suffice exactly when fewer than needed. -/
theorem pieces_lt {m : Nat} (hm : 0 < m) (r i : Nat) : i < (r + m - 1) / m ↔ i * m < r := by
  rw [Nat.lt_iff_add_one_le, Nat.le_div_iff_mul_le hm, Nat.succ_mul]
  omega

theorem prfLoop_spec {a : HashAlg} (ha : HashOk a) (h0 : 0 < a.hlen) {key : Bytes} (seed : Bytes) (reqlen : Nat) :
    ∀ (room i : Nat) (o : Hmac) (ax : Bytes), HmacFor a key o → i + room = (reqlen + a.hlen - 1) / a.hlen →
      (0 < room → ax = aChain a key seed (i + 1)) →
      prfLoop seed reqlen room o ax (pHash a key seed i) = .ok (pHash a key seed ((reqlen + a.hlen - 1) / a.hlen)) := by
  intro room
  induction room with
  | zero =>
    intro i o ax _ hi _
    unfold prfLoop
    have := pieces_lt h0 reqlen i
    rw [pHash_length ha, if_neg (by omega), ← hi]
    rfl
  | succ room ih =>
    intro i o ax ho hi hx
    have hx := hx (by omega)
    unfold prfLoop
    have c := pieces_lt h0 reqlen i
    rw [pHash_length ha, if_pos (by omega)]
    obtain ⟨o1, e1, ho1⟩ := prfMac_spec ha (fed_reinit ha ho) [ax, seed]
    rw [e1]
    have hb : [ax, seed].flatten = aChain a key seed (i + 1) ++ seed := by rw [hx]; simp
    simp only [hb, ← pHash_succ, pHash_length ha]
    have c' := pieces_lt h0 reqlen (i + 1)
    by_cases hl : (i + 1) * a.hlen < reqlen
    · rw [if_pos hl]
      obtain ⟨o2, e2, ho2⟩ := prfMac_spec ha (fed_reinit ha ho1) [ax]
      rw [e2]
      simp only
      refine ih (i + 1) o2 _ ho2 (by omega) (fun _ => ?_)
      rw [hx]; simp [aChain]
    · rw [if_neg hl]
      have : room = 0 := by omega
      exact ih (i + 1) o1 ax ho1 (by omega) (fun h => by omega)

/-- On a new operation the result is P_hash, cut to the requested length; it only fails when the memory cannot exist. -/
theorem prfFinish_spec {a : HashAlg} (ha : HashOk a) (h0 : 0 < a.hlen) {key : Bytes} {o : Hmac} (h : Fed a key a.hlen [] o) (seed : Bytes)
    (reqlen : Nat) : if (reqlen + a.hlen - 1) / a.hlen * a.hlen < 2 ^ 63 then
      ∃ out, prfFinish o seed reqlen = .ok out ∧ out.length = reqlen ∧ IsPrf a key seed out
    else prfFinish o seed reqlen = .error .panic := by
  obtain ⟨o1, e1, ho1⟩ := prfMac_spec ha h [seed]
  have hu : prfFinish o seed reqlen = if (reqlen + a.hlen - 1) / a.hlen * a.hlen ≥ 2 ^ 63 then .error .panic
      else match prfLoop seed reqlen ((reqlen + a.hlen - 1) / a.hlen) o1 (hmac a key [seed].flatten) [] with
        | .error r => .error r
        | .ok out => .ok (resize out reqlen) := by
    unfold prfFinish
    rw [e1]
    simp only [ho1.outlen]
    rw [if_neg (by omega)]
    rfl
  rw [hu]
  by_cases hs : (reqlen + a.hlen - 1) / a.hlen * a.hlen < 2 ^ 63
  · rw [if_pos hs, if_neg (by omega)]
    have l := prfLoop_spec ha h0 seed reqlen ((reqlen + a.hlen - 1) / a.hlen) 0 o1 (hmac a key [seed].flatten) ho1 (by omega)
      (fun _ => by simp [aChain])
    have z : pHash a key seed 0 = [] := rfl
    rw [z] at l
    rw [l]
    have hr : reqlen ≤ (reqlen + a.hlen - 1) / a.hlen * a.hlen := by
      have := pieces_lt h0 reqlen ((reqlen + a.hlen - 1) / a.hlen)
      omega
    obtain ⟨t1, t2⟩ := take_prf ha key seed _ reqlen hr
    refine ⟨(pHash a key seed ((reqlen + a.hlen - 1) / a.hlen)).take reqlen, ?_, t1, t2⟩
    simp only
    unfold resize
    rw [pHash_length ha, show reqlen - (reqlen + a.hlen - 1) / a.hlen * a.hlen = 0 by omega]
    simp
  · rw [if_neg hs, if_pos (by omega)]

/-- Whenever it succeeds. -/
theorem prfFinish_ok {a : HashAlg} (ha : HashOk a) (h0 : 0 < a.hlen) {key : Bytes} {o : Hmac} (h : Fed a key a.hlen [] o) {seed : Bytes}
    {reqlen : Nat} {out : Bytes} (hf : prfFinish o seed reqlen = .ok out) : out.length = reqlen ∧ IsPrf a key seed out := by
  have := prfFinish_spec ha h0 h seed reqlen
  split at this
  · obtain ⟨x, e, l, p⟩ := this
    rw [e] at hf
    injection hf with hf
    subst hf
    exact ⟨l, p⟩
  · rw [this] at hf; cases hf

/-- The operation is made from the value of the key. -/
theorem tlsPrfInit_ok {algs : Nat → HashAlg} {prf : Nat} {key : Obj} {op : Hmac} (h : tlsPrfInit algs prf key = .ok op) :
    ∃ v, key.getBytes CKA_VALUE = .ok v ∧ op = Hmac.internal (algs prf) v (algs prf).hlen := by
  unfold tlsPrfInit at h
  split at h
  · cases h
  · rename_i o hn
    injection h with h
    subst h
    unfold hmacNew at hn
    repeat' (split at hn)
    all_goals first | (cases hn; done) | skip
    rename_i v hv
    injection hn with hn
    injection hn with hn
    exact ⟨v, hv, hn.symm⟩
  · cases h

end Kry
