import Verif.Model.MacCalls
import Verif.Proofs.Follow
import Verif.Props.C50
import Verif.Props.C82
import Verif.Props.C22

/-!
# C84: an HMAC or a digest depends on the key and the parts given, whatever happens around it

`C84_sign`, `C84_verify`, `C84_verifySig`, `C84_digest`: after a successful init and any further calls (on this session, on others, for other operations, logins,
object calls), the calls that end the operation answer with the RFC 2104 value (or the hash) of what the updates of this operation were given since,
and with nothing else.  `C84_param`: which parameters of the mechanisms are taken.
-/

namespace Kry
namespace Spec

/-- The hash functions: mechanism number (PKCS#11), bytes of output and of a block (FIPS 180-4, figure 1; FIPS 202, table 3). -/
def hashTable : List (Nat × Nat × Nat) :=
  [(0x220, 20, 64), (0x255, 28, 64), (0x250, 32, 64), (0x260, 48, 128), (0x270, 64, 128), (0x2B5, 28, 144), (0x2B0, 32, 136), (0x2C0, 48, 104),
   (0x2D0, 64, 72), (0x48, 28, 128), (0x4C, 32, 128)]

/-- Mechanism `m` with parameter `q` is HMAC with the hash `x.1`, giving `n` bytes: without a parameter the whole output of the hash, with a length any
length up to that. -/
def IsMac (m : Nat) (q : Bytes) (x : Nat × Nat × Nat) (n : Nat) : Prop :=
  x ∈ hashTable ∧ ((m = x.1 + 1 ∧ q = [] ∧ n = x.2.1) ∨ (m = x.1 + 2 ∧ q.length = 8 ∧ fromLE q = n ∧ 1 ≤ n ∧ n ≤ x.2.1))

/-- The HMAC value: RFC 2104, the first `n` bytes. -/
def hmacOf (H : Nat → Bytes → Bytes) (x : Nat × Nat × Nat) (n : Nat) (key msg : Bytes) : Bytes :=
  (hmac ⟨H x.1, x.2.1, x.2.2⟩ key msg).take n

/-- The hashes have outputs of their size. -/
def HashLens (H : Nat → Bytes → Bytes) : Prop := ∀ x ∈ hashTable, ∀ b, (H x.1 b).length = x.2.1

/-- The answer of a call that gives out `v`, `n` bytes long: length for a NULL buffer, CKR_BUFFER_TOO_SMALL for a short one. -/
def givesOut (out : Option Nat) (n : Nat) (v : Out) : Out :=
  match out with
  | none => .size n
  | some b => if b < n then .err .bufferTooSmall else v

/-- In the state after `tr`, session `h` starts operation `k` with mechanism `m` and parameter `q`, which succeeds; then the calls of `tr2` are made, by anyone, and end in state `s`;
the calls and their answers say that the operation was given the parts `w` (`fedIn`). -/
structure Ran (M : Mechs) (C : Crypto) (O : Oracle) (d : List (Nat × Db)) (tr : Trace) (e : Env) (h : Nat) (k : OpKind) (m : Nat) (q : Bytes) (key : Nat)
    (sig : Bytes) (tr2 : Trace) (w : List Bytes) (s : St) : Prop where
  started : (step M C O e (after M C O d tr) (.op h (.opInit k (some (m, q)) key sig))).1 = .ok
  parts : fedIn h k (hist M C O (step M C O e (after M C O d tr) (.op h (.opInit k (some (m, q)) key sig))).2 tr2) = some w
  ends : s = run M C O (step M C O e (after M C O d tr) (.op h (.opInit k (some (m, q)) key sig))).2 tr2

/-- The session may wait for a login: the key that signs has CKA_ALWAYS_AUTHENTICATE, or another signature or decryption was started on the session since. -/
def Waits (C : Crypto) (s : St) (i key h : Nat) (k : OpKind) (tr2 : Trace) : Prop :=
  (k = .sign ∧ ¬ Seen C s i key fun o => o.getBool CKA_ALWAYS_AUTHENTICATE ≠ .ok true) ∨ ∃ p ∈ tr2, asksLogin h p.2

/-- The answer is `x`, or CKR_USER_NOT_LOGGED_IN while `p`. -/
def AnswerOr (p : Prop) (r x : Out) : Prop := r = x ∨ (r = .err .userNotLoggedIn ∧ p)

end Spec

open Spec

variable {M : Mechs} {C : Crypto} {O : Oracle} {H : Nat → Bytes → Bytes}

/-! ## The serial form -/

theorem unpackB_pack (b r : Bytes) : unpackB (packB b ++ r) = (b, r) := by
  induction b with
  | nil =>
    cases r with
    | nil => rfl
    | cons y l => show (if (0 : UInt8) = 1 then _ else _) = _; rw [if_neg (by decide)]
  | cons b l ih =>
    show (if (1 : UInt8) = 1 then _ else _) = _
    rw [if_pos rfl]
    show (b :: (unpackB (packB l ++ r)).1, (unpackB (packB l ++ r)).2) = _
    rw [ih]

theorem unpackB_pack' (b : Bytes) : unpackB (packB b) = (b, []) := by
  have := unpackB_pack b []
  rwa [List.append_nil] at this

theorem hmac_unpack (o : Hmac) : Hmac.unpack o.alg o.fin o.pack = o := by
  obtain ⟨a, k, n, s, ip, op, inn, f, u, sg⟩ := o
  unfold Hmac.unpack Hmac.pack
  simp only [unpackB_pack, unpackB_pack', List.length_replicate]
  congr 1
  · cases u <;> rfl
  · cases sg <;> rfl

theorem hash_unpack (o : HashOp) : HashOp.unpack o.alg o.fin o.pack = o := by
  obtain ⟨a, d, f, u⟩ := o
  unfold HashOp.unpack HashOp.pack
  simp only [unpackB_pack, unpackB_pack']
  congr 1
  · cases u <;> rfl

/-! ## The tables -/

theorem rows_table : hashRows.map (fun r => (r.hash, r.size, r.block)) = hashTable := by decide +kernel

theorem mac_rows : hashTable.all (fun x => match macRow (x.1 + 1), macRow (x.1 + 2), digestRow x.1, macRow x.1 with
    | some r, some r', some r'', none => r.hash == x.1 && r.size == x.2.1 && r.block == x.2.2 && r.mac == x.1 + 1 &&
      r'.hash == x.1 && r'.size == x.2.1 && r'.block == x.2.2 && r'.mac == x.1 + 1 && r''.hash == x.1 && r''.size == x.2.1 && r''.block == x.2.2
    | _, _, _, _ => false) = true := by decide +kernel

theorem table_sizes : hashTable.all (fun x => decide (x.2.1 ≤ x.2.2) && decide (x.2.2 ≤ MAX_BSZ)) = true := by decide +kernel

/-- The row of an HMAC mechanism. -/
theorem row_mac {x : Nat × Nat × Nat} (hx : x ∈ hashTable) {m : Nat} (hm : m = x.1 + 1 ∨ m = x.1 + 2) :
    ∃ r, macRow m = some r ∧ r.hash = x.1 ∧ r.size = x.2.1 ∧ r.block = x.2.2 ∧ r.mac = x.1 + 1 := by
  have h := List.all_eq_true.1 mac_rows x hx
  split at h
  · rename_i r r' r'' h1 h2 h3 h4
    simp only [Bool.and_eq_true, beq_iff_eq] at h
    obtain ⟨⟨⟨⟨⟨⟨⟨⟨⟨⟨a1, a2⟩, a3⟩, a4⟩, a5⟩, a6⟩, a7⟩, a8⟩, _⟩, _⟩, _⟩ := h
    rcases hm with hm | hm <;> subst hm
    · exact ⟨r, h1, a1, a2, a3, a4⟩
    · exact ⟨r', h2, a5, a6, a7, a8⟩
  · cases h

/-- The row of a digest mechanism. -/
theorem row_digest {x : Nat × Nat × Nat} (hx : x ∈ hashTable) :
    macRow x.1 = none ∧ ∃ r, digestRow x.1 = some r ∧ r.hash = x.1 ∧ r.size = x.2.1 ∧ r.block = x.2.2 := by
  have h := List.all_eq_true.1 mac_rows x hx
  split at h
  · rename_i r r' r'' h1 h2 h3 h4
    simp only [Bool.and_eq_true, beq_iff_eq] at h
    exact ⟨h4, r'', h3, h.1.1.2, h.1.2, h.2⟩
  · cases h

theorem table_ok (hH : HashLens H) {x : Nat × Nat × Nat} (hx : x ∈ hashTable) : HashOk ⟨H x.1, x.2.1, x.2.2⟩ := by
  have h := List.all_eq_true.1 table_sizes x hx
  simp only [Bool.and_eq_true, decide_eq_true_eq] at h
  exact ⟨hH x hx, h.1, h.2⟩

theorem row_alg {r : HashRow} {x : Nat × Nat × Nat} (h1 : r.hash = x.1) (h2 : r.size = x.2.1) (h3 : r.block = x.2.2) :
    r.alg H = ⟨H x.1, x.2.1, x.2.2⟩ := by unfold HashRow.alg; rw [h1, h2, h3]

/-! ## The operations -/

/-- An HMAC operation that was given the parts `w`. -/
def MacIs (a : HashAlg) (v : Bytes) (n : Nat) (sg : Option Bytes) (m : Nat) (w : List Bytes) (op : Op) : Prop :=
  ∃ o : Hmac, op = macOp m o ∧ Fed a v n w.flatten o ∧ o.inUse = !w.isEmpty ∧ o.sig = sg

/-- A digest that was given the parts `w`. -/
def DigestIs (a : HashAlg) (m : Nat) (w : List Bytes) (op : Op) : Prop := op = digestOp m ⟨a, w.flatten, false, !w.isEmpty⟩

theorem quietly_room {p : Res Unit × Hmac} (h : p.1 ≠ .error .bufferTooSmall) : (quietly p).1 ≠ .error .bufferTooSmall := by
  obtain ⟨r, o⟩ := p
  cases r with
  | error r => intro e; exact h (by injection e with e; subst e; rfl)
  | ok u => nofun

theorem finalize_room (o : Hmac) (n : Nat) : (o.finalize n).1 ≠ .error .bufferTooSmall := by
  unfold Hmac.finalize
  repeat' split
  all_goals (try simp only)
  all_goals (repeat' split)
  all_goals nofun

theorem mac_room (k : OpKind) (a : Act) (o : Hmac) (i : OpIn) : (hmacRun k a o i).1 ≠ .error .bufferTooSmall := by
  have up : ∀ (o : Hmac) d, (o.update d).1 ≠ .error .bufferTooSmall := by
    intro o d; unfold Hmac.update; split <;> nofun
  have st : ∀ o : Hmac, o.start ≠ .error .bufferTooSmall := by
    intro o; unfold Hmac.start; split <;> nofun
  have vf : ∀ (o : Hmac) s, (o.verifyFinal s).1 ≠ .error .bufferTooSmall := by
    intro o s
    unfold Hmac.verifyFinal
    have f := finalize_room o o.outlen
    generalize o.finalize o.outlen = p at f
    obtain ⟨r, o'⟩ := p
    cases r with
    | error r => intro e; exact f (by injection e with e; subst e; rfl)
    | ok v => simp only; split <;> nofun
  have vs : ∀ (o : Hmac), (o.verifySigFinal).1 ≠ .error .bufferTooSmall := by
    intro o
    unfold Hmac.verifySigFinal
    have f := finalize_room o o.outlen
    generalize o.finalize o.outlen = p at f
    obtain ⟨r, o'⟩ := p
    cases r with
    | error r => intro e; exact f (by injection e with e; subst e; rfl)
    | ok v =>
      simp only
      split
      · simp only; split <;> nofun
      · nofun
  have seq : ∀ (o : Hmac) d {α} (f : Hmac → Res α × Hmac), (∀ o, (f o).1 ≠ .error .bufferTooSmall) →
      (match o.start with
        | .error r => (.error r, o)
        | .ok () => match (o.update d).1 with
          | .error r => (.error r, (o.update d).2)
          | .ok () => f (o.update d).2 : Res α × Hmac).1 ≠ .error .bufferTooSmall := by
    intro o d α f hf
    have s := st o
    have u := up o d
    split
    · rename_i r hr; intro e; exact s (by injection e with e; subst e; exact hr)
    · split
      · rename_i r hr; intro e; exact u (by injection e with e; subst e; exact hr)
      · exact hf _
  unfold hmacRun
  repeat' split
  · exact quietly_room (up _ _)
  · exact seq o i.data (fun o' => o'.finalize o.outlen) (fun o' => finalize_room o' _)
  · exact quietly_room (seq o i.data (fun o' => o'.verifyFinal i.sig) (fun o' => vf o' _))
  · exact quietly_room (seq o i.data (fun o' => o'.verifySigFinal) vs)
  · nofun
  · exact finalize_room _ _
  · exact quietly_room (vf _ _)
  · exact quietly_room (vs _)
  · nofun

/-- What the machine does with an HMAC operation. -/
theorem run_mac {m : Nat} {r : HashRow} (hm : macRow m = some r) (e : Env) (k : OpKind) (a : Act) (o : Hmac) (ho : o.alg = r.alg H) (i : OpIn) :
    runOp (withMac M H) e k a (macOp m o) i = ((hmacRun k a o i).1, macOp m (hmacRun k a o i).2) := by
  have e1 : (withMac M H).run e k a (macOp m o) i = ((hmacRun k a (Hmac.unpack (r.alg H) o.fin o.pack) i).1, macOp m (hmacRun k a (Hmac.unpack (r.alg H) o.fin o.pack) i).2) := by
    show (match macRow m with
      | some r => _
      | none => _) = _
    rw [hm]
    rfl
  rw [← ho, hmac_unpack] at e1
  unfold runOp
  rw [e1]
  rfl

theorem len_mac {m : Nat} {r : HashRow} (hm : macRow m = some r) (k : OpKind) (a : Act) (o : Hmac) (ho : o.alg = r.alg H) (n : Nat) :
    (lenOp (withMac M H) k a (macOp m o) n).1 = .ok o.outlen := by
  have e1 : (withMac M H).len k a (macOp m o) n = (.ok (Hmac.unpack (r.alg H) o.fin o.pack).outlen, macOp m o) := by
    show (match macRow m with
      | some r => _
      | none => _) = _
    rw [hm]
    rfl
  rw [← ho, hmac_unpack] at e1
  unfold lenOp
  rw [e1]

theorem run_digest {m : Nat} {r : HashRow} (h0 : macRow m = none) (hm : digestRow m = some r) (e : Env) (k : OpKind) (a : Act) (o : HashOp)
    (ho : o.alg = r.alg H) (i : OpIn) :
    runOp (withMac M H) e k a (digestOp m o) i = ((digestRun k a o i).1, digestOp m (digestRun k a o i).2) := by
  have e1 : (withMac M H).run e k a (digestOp m o) i =
      ((digestRun k a (HashOp.unpack (r.alg H) o.fin o.pack) i).1, digestOp m (digestRun k a (HashOp.unpack (r.alg H) o.fin o.pack) i).2) := by
    show (match macRow m with
      | some r => _
      | none => match digestRow m with
        | some r => _
        | none => _) = _
    rw [h0, hm]
    rfl
  rw [← ho, hash_unpack] at e1
  unfold runOp
  rw [e1]
  rfl

theorem len_digest {m : Nat} {r : HashRow} (h0 : macRow m = none) (hm : digestRow m = some r) (k : OpKind) (a : Act) (o : HashOp) (n : Nat) :
    (lenOp (withMac M H) k a (digestOp m o) n).1 = .ok r.size := by
  have e1 : (withMac M H).len k a (digestOp m o) n = (.ok r.size, digestOp m o) := by
    show (match macRow m with
      | some r => _
      | none => match digestRow m with
        | some r => _
        | none => _) = _
    rw [h0, hm]
  unfold lenOp
  rw [e1]

theorem mac_follows {m : Nat} {r : HashRow} (hm : macRow m = some r) (k : OpKind) (v : Bytes) (n : Nat) (sg : Option Bytes) :
    Follows (withMac M H) k (MacIs (r.alg H) v n sg m) := by
  refine ⟨?_, ?_, ?_⟩
  · rintro w op ⟨o, rfl, f, -⟩; exact f.fin
  · rintro e w op d b ⟨o, rfl, f, u, g⟩ -
    rw [run_mac hm e k .update o f.alg]
    refine ⟨(o.update d).2, rfl, ?_, ?_, ?_⟩
    · have := (fed_update f d).2
      rw [List.flatten_append, List.flatten_singleton]
      exact this
    · unfold Hmac.update
      rw [if_neg (by rw [f.fin]; simp)]
      simp
    · unfold Hmac.update
      rw [if_neg (by rw [f.fin]; simp)]
      exact g
  · rintro e w op a i ⟨o, rfl, f, u, g⟩
    rw [run_mac hm e k a o f.alg]
    exact mac_room _ _ _ _

theorem digest_follows {m : Nat} {r : HashRow} (h0 : macRow m = none) (hm : digestRow m = some r) (k : OpKind) :
    Follows (withMac M H) k (DigestIs (r.alg H) m) := by
  refine ⟨?_, ?_, ?_⟩
  · rintro w op rfl; rfl
  · rintro e w op d b rfl -
    rw [run_digest h0 hm e k .update _ rfl]
    show digestOp m _ = digestOp m _
    congr 1
    show HashOp.mk _ (w.flatten ++ d) _ true = _
    rw [List.flatten_append, List.flatten_singleton]
    congr 1
    simp
  · rintro e w op a i rfl
    rw [run_digest h0 hm e k a _ rfl]
    unfold digestRun
    split
    · nofun
    · unfold HashOp.digest; repeat' split
      all_goals nofun
    · unfold HashOp.final; repeat' split
      all_goals nofun

/-! ## The start of an operation -/

/-- A start with a key that succeeds: the key was read, and the parameter and signature only matter for the mechanism. -/
theorem initKey_read {e : Env} {k : OpKind} {m key : Nat} {q sig : Bytes} {x : Session} {t : Token}
    (h : (fnInitKey M C e k m q key sig x t).1 = .ok ()) :
    ∃ o, t.getObjectByHandle C (e.sub 0) key = .ok o ∧
      (∃ op, newOp M (e.sub 1) k m q (some o) sig = .ok op ∧
        (fnInitKey M C e k m q key sig x t).2 = x.setOp k op ((k == .sign || k == .dec) && o.alwaysAuth)) ∧
      ∀ q' sig', (fnInitKey M C e k m q' key sig' x t).1 = match newOp M (e.sub 1) k m q' (some o) sig' with
        | .error r => .error r
        | .ok _ => .ok () := by
  unfold fnInitKey at h ⊢
  cases h1 : x.checkNoOp k with
  | error r => rw [h1] at h; cases h
  | ok u =>
    rw [h1] at h
    simp only at h ⊢
    by_cases h2 : (!t.isInitialized) = true
    · rw [if_pos h2] at h; cases h
    simp only [if_neg h2] at h ⊢
    cases h3 : t.getObjectByHandle C (e.sub 0) key with
    | error r => rw [h3] at h; cases h
    | ok o =>
      rw [h3] at h
      simp only at h ⊢
      cases h4 : checkAllowed m o with
      | error r => rw [h4] at h; cases h
      | ok u =>
        rw [h4] at h
        simp only at h ⊢
        cases h5 : mechWith M t m (opFlag k) with
        | error r => rw [h5] at h; cases h
        | ok u =>
          rw [h5] at h
          simp only at h ⊢
          refine ⟨o, rfl, ?_, ?_⟩
          · cases h6 : newOp M (e.sub 1) k m q (some o) sig with
            | error r => rw [h6] at h; cases h
            | ok op => exact ⟨op, rfl, rfl⟩
          · intro q' sig'
            cases newOp M (e.sub 1) k m q' (some o) sig' <;> rfl

/-- The signature an operation is given at its start. -/
def startSig (k : OpKind) (sig : Bytes) : Option Bytes := if k = .verifySig then some sig else none

/-- The new HMAC operation. -/
theorem newOp_mac {m : Nat} {r : HashRow} (hm : macRow m = some r) (e : Env) {k : OpKind} {q sig : Bytes} {o : Obj} {op : Op}
    (h : newOp (withMac M H) e k m q (some o) sig = .ok op) :
    ∃ v, o.getBytes CKA_VALUE = .ok v ∧ (∃ n ho, macParam r m q = .ok n ∧ Hmac.new (r.alg H) v n (startSig k sig) = .ok ho ∧
        op = { macOp m ho with fin := false }) ∧
      ∀ q' sig', (match newOp (withMac M H) e k m q' (some o) sig' with
        | .error r => .error r
        | .ok _ => .ok () : Res Unit) = match macParam r m q' with
          | .error r => .error r
          | .ok n => match Hmac.new (r.alg H) v n (startSig k sig') with
            | .error r => .error r
            | .ok _ => .ok () := by
  have nw : ∀ q' sig', (withMac M H).new e k m q' (some o) sig' = macNew (r.alg H) r m q' o (startSig k sig') := by
    intro q' sig'
    show (match macRow m with
      | some r => _
      | none => _) = _
    rw [hm]
    rfl
  unfold newOp at h ⊢
  simp only at h ⊢
  cases h1 : famCheck ((withMac M H).fam m) k o with
  | error r => rw [h1] at h; cases h
  | ok u =>
    rw [h1] at h
    simp only [nw] at h ⊢
    unfold macNew at h ⊢
    cases h2 : o.getBytes CKA_VALUE with
    | error r => rw [h2] at h; cases h
    | ok v =>
      rw [h2] at h
      simp only at h ⊢
      refine ⟨v, rfl, ?_, ?_⟩
      · cases h3 : macParam r m q with
        | error r => rw [h3] at h; cases h
        | ok n =>
          rw [h3] at h
          simp only at h
          cases h4 : Hmac.new (r.alg H) v n (startSig k sig) with
          | error r => rw [h4] at h; cases h
          | ok ho =>
            rw [h4] at h
            injection h with h
            exact ⟨n, ho, rfl, h4, h.symm⟩
      · intro q' sig'
        cases macParam r m q' with
        | error r => rfl
        | ok n => simp only; cases Hmac.new (r.alg H) v n (startSig k sig') <;> rfl

theorem macParam_is {x : Nat × Nat × Nat} (hx : x ∈ hashTable) {m : Nat} (hm : m = x.1 + 1 ∨ m = x.1 + 2) {r : HashRow} (h2 : r.size = x.2.1)
    (h4 : r.mac = x.1 + 1) (q : Bytes) :
    (∀ n, macParam r m q = .ok n ↔ IsMac m q x n) ∧ ((¬ ∃ n, IsMac m q x n) → macParam r m q = .error .mechanismParamInvalid) := by
  unfold macParam IsMac
  rw [h2, h4]
  rcases hm with hm | hm <;> subst hm
  · rw [if_pos rfl]
    by_cases hq : q.length = 0
    · rw [if_neg (fun c => c hq)]
      have hq' := List.length_eq_zero_iff.1 hq
      refine ⟨fun n => ⟨fun h => ⟨hx, .inl ⟨rfl, hq', by injection h with h; exact h.symm⟩⟩, ?_⟩, fun h => absurd ⟨x.2.1, hx, .inl ⟨rfl, hq', rfl⟩⟩ h⟩
      rintro ⟨-, ⟨-, -, h⟩ | ⟨h, -⟩⟩
      · rw [h]
      · omega
    · rw [if_pos hq]
      refine ⟨fun n => ⟨nofun, ?_⟩, fun _ => rfl⟩
      rintro ⟨-, ⟨-, h, -⟩ | ⟨h, -⟩⟩
      · rw [h] at hq; exact absurd rfl hq
      · omega
  · rw [if_neg (by omega)]
    by_cases hq : q.length = 8
    · rw [if_neg (fun c => c hq)]
      by_cases hl : fromLE q < 1 ∨ x.2.1 < fromLE q
      · rw [if_pos hl]
        refine ⟨fun n => ⟨nofun, ?_⟩, fun _ => rfl⟩
        rintro ⟨-, ⟨h, -⟩ | ⟨-, -, h, h', h''⟩⟩ <;> omega
      · rw [if_neg hl]
        refine ⟨fun n => ⟨fun h => ?_, ?_⟩, fun h => absurd ⟨fromLE q, hx, .inr ⟨rfl, hq, rfl, by omega, by omega⟩⟩ h⟩
        · injection h with h
          exact ⟨hx, .inr ⟨rfl, hq, h, by omega, by omega⟩⟩
        · rintro ⟨-, ⟨h, -⟩ | ⟨-, -, h, -, -⟩⟩
          · omega
          · rw [h]
    · rw [if_pos hq]
      refine ⟨fun n => ⟨nofun, ?_⟩, fun _ => rfl⟩
      rintro ⟨-, ⟨h, -⟩ | ⟨-, h, -⟩⟩
      · omega
      · exact absurd h hq

theorem isMac_mech {m : Nat} {q : Bytes} {x : Nat × Nat × Nat} {n : Nat} (h : IsMac m q x n) : m = x.1 + 1 ∨ m = x.1 + 2 := by
  rcases h with ⟨-, ⟨h, -⟩ | ⟨h, -⟩⟩
  · exact .inl h
  · exact .inr h

theorem isMac_le {m : Nat} {q : Bytes} {x : Nat × Nat × Nat} {n : Nat} (h : IsMac m q x n) : n ≤ x.2.1 := by
  rcases h with ⟨-, ⟨-, -, h⟩ | ⟨-, -, -, -, h⟩⟩
  · exact Nat.le_of_eq h
  · exact h

theorem isMac_fun {m : Nat} {q : Bytes} {x : Nat × Nat × Nat} {n n' : Nat} (h : IsMac m q x n) (h' : IsMac m q x n') : n = n' := by
  rcases h with ⟨-, ⟨h1, h2, h3⟩ | ⟨h1, h2, h3, -, -⟩⟩ <;> rcases h' with ⟨-, ⟨g1, g2, g3⟩ | ⟨g1, g2, g3, -, -⟩⟩ <;> omega

/-- The kinds HMAC is for. -/
def macKind (k : OpKind) : Prop := k = .sign ∨ k = .verify ∨ k = .verifySig

/-- After a successful start every session with the handle has the new operation. -/
theorem mac_begun (hH : HashLens H) {s : St} (hi : Inv s) {e : Env} {h i key m n : Nat} {q sig v : Bytes} {k : OpKind} (hk : macKind k)
    {x : Nat × Nat × Nat} (hx : IsMac m q x n) (hs : AMap.get s.smap h = some i) (hv : Seen C s i key fun o => o.getBytes CKA_VALUE = .ok v)
    (hok : (step (withMac M H) C O e s (.op h (.opInit k (some (m, q)) key sig))).1 = .ok) :
    Bearing h k (MacIs ⟨H x.1, x.2.1, x.2.2⟩ v n (startSig k sig) m) (some [])
      (step (withMac M H) C O e s (.op h (.opInit k (some (m, q)) key sig))).2 := by
  intro w hw j sl' y g1 g2
  injection hw with hw; subst hw
  have mv := step_sess hi g1 g2
  generalize (step (withMac M H) C O e s (.op h (.opInit k (some (m, q)) key sig))).1 = a at mv hok
  subst hok
  generalize hc : Call.op h (.opInit k (some (m, q)) key sig) = c at mv
  generalize hr : Out.ok = r at mv
  cases mv with
  | opened => cases hc
  | kept c a sl z _ _ _ hc1 => exact absurd hc.symm (hc1 _)
  | loggedIn => cases hc
  | sess => cases hc
  | op oc sl z hg hyy =>
    injection hc with _ hc; subst hc
    obtain ⟨_, hm, g3, g4⟩ := getSession_ok hg
    rw [hs] at hm; injection hm with hm; subst hm
    obtain ⟨sl2, g5, sv⟩ := hv
    rw [g3] at g5; injection g5 with g5; subst g5
    obtain ⟨o, o1, o2⟩ := sv quietEnv (fun _ => rfl)
    have kd : k ≠ .digest := by rcases hk with hk | hk | hk <;> rw [hk] <;> nofun
    unfold opStep at hr hyy
    simp only [if_neg kd] at hr hyy
    have ok : (fnInitKey (withMac M H) C e k m q key sig z sl.token).1 = .ok () := by
      cases hz : (fnInitKey (withMac M H) C e k m q key sig z sl.token).1 with
      | ok u => rfl
      | error r => rw [hz] at hr; cases hr
    obtain ⟨o', p1, ⟨op, p2, p3⟩, -⟩ := initKey_read ok
    have := byHandle_mono (e' := quietEnv) (fun _ => rfl) p1
    rw [o1] at this; injection this with this; subst this
    obtain ⟨r, hr1, hr2, hr3, hr4, hr5⟩ := row_mac hx.1 (isMac_mech hx)
    obtain ⟨v', q1, ⟨n', ho, q2, q3, q4⟩, -⟩ := newOp_mac hr1 _ p2
    rw [o2] at q1; injection q1 with q1; subst q1
    have := ((macParam_is hx.1 (isMac_mech hx) hr3 hr5 q).1 n').1 q2
    have := isMac_fun hx this; subst this
    rw [hyy, p3]
    rw [row_alg hr2 hr3 hr4] at q3
    have hf : Fed ⟨H x.1, x.2.1, x.2.2⟩ v n [] ho ∧ ho.inUse = false ∧ ho.sig = startSig k sig := by
      have f := fed_internal (table_ok hH hx.1) v n
      unfold Hmac.new at q3
      split at q3
      · rename_i hs
        injection q3 with q3; subst q3
        exact ⟨f, rfl, by rw [hs]; rfl⟩
      · rename_i s' hs
        split at q3
        · cases q3
        · injection q3 with q3; subst q3
          obtain ⟨f1, f2, f3, f4, f5, f6, f7⟩ := f
          exact ⟨⟨f1, f2, f3, f4, f5, f6, f7⟩, rfl, hs.symm⟩
    refine ⟨?_, op, ?_, ho, ?_, hf.1, hf.2.1, hf.2.2⟩
    · show (if _ then OpLogin.required else OpLogin.notRequired) ≠ _
      split <;> nofun
    · show AMap.get (AMap.insert z.ops k op) k = _
      rw [AMap.get_insert, if_pos rfl]
    · rw [q4]
      have := hf.1.fin
      unfold macOp
      rw [this]

/-- After a successful start the session waits for a login only if the key asks for it. -/
theorem mac_calm {s : St} (hi : Inv s) {e : Env} {h i key m : Nat} {q sig : Bytes} {k : OpKind} (hk : k ≠ .dec)
    (hs : AMap.get s.smap h = some i) (hv : k = .sign → Seen C s i key fun o => o.getBool CKA_ALWAYS_AUTHENTICATE ≠ .ok true)
    (hok : (step M C O e s (.op h (.opInit k (some (m, q)) key sig))).1 = .ok) :
    Calm h (step M C O e s (.op h (.opInit k (some (m, q)) key sig))).2 := by
  intro j sl' y g1 g2
  have mv := step_sess hi g1 g2
  generalize (step M C O e s (.op h (.opInit k (some (m, q)) key sig))).1 = a at mv hok
  subst hok
  generalize hc : Call.op h (.opInit k (some (m, q)) key sig) = c at mv
  generalize hr : Out.ok = r at mv
  cases mv with
  | opened => cases hc
  | kept c a sl z _ _ _ hc1 => exact absurd hc.symm (hc1 _)
  | loggedIn => cases hc
  | sess => cases hc
  | op oc sl z hg hyy =>
    injection hc with _ hc; subst hc
    obtain ⟨_, hm, g3, g4⟩ := getSession_ok hg
    rw [hs] at hm; injection hm with hm; subst hm
    unfold opStep at hr hyy
    simp only at hr hyy
    by_cases kd : k = .digest
    · subst kd
      rw [if_pos rfl] at hr hyy
      have ok : (fnInitDigest M e m q z sl.token).1 = .ok () := by
        cases hz : (fnInitDigest M e m q z sl.token).1 with
        | ok u => rfl
        | error r => rw [hz] at hr; cases hr
      rw [hyy]
      unfold fnInitDigest at ok ⊢
      repeat' split at ok
      all_goals first | (cases ok; done) | skip
      rename_i h1 h2 _ h3 _ op h4
      simp only [h1, if_neg h2, h3, h4]
      nofun
    · simp only [if_neg kd] at hr hyy
      have ok : (fnInitKey M C e k m q key sig z sl.token).1 = .ok () := by
        cases hz : (fnInitKey M C e k m q key sig z sl.token).1 with
        | ok u => rfl
        | error r => rw [hz] at hr; cases hr
      obtain ⟨o', p1, ⟨op, p2, p3⟩, -⟩ := initKey_read ok
      rw [hyy, p3]
      show (if ((k == .sign || k == .dec) && o'.alwaysAuth) = true then OpLogin.required else OpLogin.notRequired) ≠ _
      rw [if_neg]
      · nofun
      · intro hb
        simp only [Bool.and_eq_true, Bool.or_eq_true, beq_iff_eq] at hb
        obtain ⟨hb1 | hb1, hb2⟩ := hb
        · obtain ⟨sl2, g5, sv⟩ := hv hb1
          rw [g3] at g5; injection g5 with g5; subst g5
          obtain ⟨o, o1, o2⟩ := sv quietEnv (fun _ => rfl)
          have := byHandle_mono (e' := quietEnv) (fun _ => rfl) p1
          rw [o1] at this; injection this with this; subst this
          apply o2
          unfold Obj.alwaysAuth Obj.boolOr at hb2
          unfold Obj.getBool
          cases hz : o.find CKA_ALWAYS_AUTHENTICATE with
          | none => rw [hz] at hb2; cases hb2
          | some a =>
            rw [hz] at hb2
            simp only at hb2 ⊢
            cases hy : a.toBool with
            | error r => rw [hy] at hb2; cases hb2
            | ok b => rw [hy] at hb2; simp only at hb2; rw [hb2]
        · exact hk hb1

/-! ## The end of an operation -/

/-- The operation is there, or the session waits for a login. -/
theorem Bears.get {P : List Bytes → Op → Prop} {k : OpKind} (hf : Follows M k P) {w : List Bytes} {x : Session} (h : Bears k P w x) :
    (x.getOp k = .error .userNotLoggedIn ∧ x.login = .required) ∨ ∃ op, x.getOp k = .ok op ∧ P w op := by
  obtain ⟨h1, op, h2, h3⟩ := h
  unfold Session.getOp Session.checkLogin
  have hl := hf.live w op h3
  cases hx : x.login with
  | notInit => exact absurd hx h1
  | required => exact .inl ⟨rfl, rfl⟩
  | notRequired => rw [h2]; simp only; rw [if_neg (by rw [hl]; simp)]; exact .inr ⟨op, rfl, h3⟩
  | loginOk => rw [h2]; simp only; rw [if_neg (by rw [hl]; simp)]; exact .inr ⟨op, rfl, h3⟩

theorem mac_final {a : HashAlg} (ha : HashOk a) {v : Bytes} {n : Nat} (hn : n ≤ a.hlen) {w : Bytes} {o : Hmac} (f : Fed a v n w o) :
    (o.finalize o.outlen).1 = .ok ((hmac a v w).take n) := by
  rw [f.outlen]; exact (fed_final ha hn f).1

theorem mac_started {a : HashAlg} {v : Bytes} {n : Nat} {w : List Bytes} {o : Hmac} (f : Fed a v n w.flatten o) (u : o.inUse = !w.isEmpty) (d : Bytes) :
    (w ≠ [] → o.start = .error .operationNotInitialized) ∧
      (w = [] → o.start = .ok () ∧ (o.update d).1 = .ok () ∧ Fed a v n d (o.update d).2 ∧ (o.update d).2.sig = o.sig) := by
  unfold Hmac.start
  constructor
  · intro hw
    rw [if_pos]
    rw [u]
    cases w with
    | nil => exact absurd rfl hw
    | cons b l => rfl
  · intro hw
    subst hw
    rw [if_neg (by rw [u]; simp)]
    have g := fed_update f d
    refine ⟨rfl, g.1, g.2, ?_⟩
    unfold Hmac.update
    split <;> rfl

/-- The answer of a call of an operation whose session is open. -/
theorem step_opRun {s : St} (hi : Inv s) {h j : Nat} (hs : onSlot M C O s h j) (e : Env) (k : OpKind) (a : Act) (i : OpIn) :
    ∃ sl x, AMap.get s.slots j = some sl ∧ AMap.get sl.sessions h = some x ∧
      (step M C O e s (.op h (.opRun k a i))).1 = (fnOpRun M C e k a i x sl.token).1 := by
  obtain ⟨sl, x, h1, h2, h3⟩ := getSession_live hi ((onSlot_iff hi).1 hs)
  refine ⟨sl, x, h2, h3, ?_⟩
  unfold step
  simp only [h1, opStep]

variable {d : List (Nat × Db)} {tr tr2 : Trace} {e : Env} {h i j key m n : Nat} {q sig v : Bytes} {w : List Bytes} {s : St} {x : Nat × Nat × Nat}

/-- What holds at the end. -/
theorem mac_ran (hH : HashLens H) {k : OpKind} (hk : macKind k) (hx : IsMac m q x n) (hs : onSlot (withMac M H) C O (after (withMac M H) C O d tr) h i)
    (hv : Seen C (after (withMac M H) C O d tr) i key fun o => o.getBytes CKA_VALUE = .ok v)
    (hr : Ran (withMac M H) C O d tr e h k m q key sig tr2 w s) :
    Inv s ∧ Bearing h k (MacIs ⟨H x.1, x.2.1, x.2.2⟩ v n (startSig k sig) m) (some w) s ∧
      Follows (withMac M H) k (MacIs ⟨H x.1, x.2.1, x.2.2⟩ v n (startSig k sig) m) ∧
      (¬ Waits C (after (withMac M H) C O d tr) i key h k tr2 → Calm h s) := by
  have i0 := inv_reach (withMac M H) (C := C) O d tr
  have i1 := inv_step (withMac M H) (C := C) O e _ (.op h (.opInit k (some (m, q)) key sig)) i0
  have b0 := mac_begun hH i0 hk hx ((onSlot_iff i0).1 hs) hv hr.started
  obtain ⟨r, hr1, hr2, hr3, hr4, hr5⟩ := row_mac hx.1 (isMac_mech hx)
  have hf := mac_follows (M := M) (H := H) hr1 k v n (startSig k sig)
  rw [row_alg hr2 hr3 hr4] at hf
  have b1 := bearing_run (C := C) (O := O) (by rcases hk with hk | hk | hk <;> subst hk <;> simp [fedKind]) hf tr2 i1 b0
  have i2 := inv_run (withMac M H) (C := C) O tr2 _ i1
  have p := hr.parts
  unfold fedIn at p
  rw [hr.ends]
  refine ⟨i2, by rw [← p]; exact b1, hf, fun hn => ?_⟩
  refine calm_run tr2 i1 (fun p hp hc => hn (.inr ⟨p, hp, hc⟩)) (mac_calm i0 ?_ ((onSlot_iff i0).1 hs) ?_ hr.started)
  · rcases hk with hk | hk | hk <;> rw [hk] <;> nofun
  · intro hk1
    exact Classical.byContradiction fun hc => hn (.inl ⟨hk1, hc⟩)

/-- The session waits for a login only when it may. -/
theorem waits_of {W : Prop} {h j : Nat} {s : St} {sl : Slot} {y : Session} (hc : ¬ W → Calm h s) (g1 : AMap.get s.slots j = some sl)
    (g2 : AMap.get sl.sessions h = some y) (hl : y.login = .required) : W :=
  Classical.byContradiction fun hn => hc hn j sl y g1 g2 hl

/-- **C84**, signatures.  The session `h` started a signature with HMAC mechanism `m` (hash `x`, `n` bytes) and a key of value `v`; since then the calls and their answers
say that the operation was given the parts `w`, in this order.  Then C_SignFinal tells `n` when it has no buffer, CKR_BUFFER_TOO_SMALL when the buffer is shorter,
and otherwise gives the HMAC of the parts put together; C_Sign gives the HMAC of its data if there was no part before, and is refused otherwise.  Only a login that
the session waits for (a key with CKA_ALWAYS_AUTHENTICATE) can come before. -/
theorem C84_sign (hH : HashLens H) (hx : IsMac m q x n) (hs : onSlot (withMac M H) C O (after (withMac M H) C O d tr) h i)
    (hv : Seen C (after (withMac M H) C O d tr) i key fun o => o.getBytes CKA_VALUE = .ok v)
    (hr : Ran (withMac M H) C O d tr e h .sign m q key sig tr2 w s) (hl : onSlot (withMac M H) C O s h j) (e2 : Env) (b : OpIn) :
    AnswerOr (Waits C (after (withMac M H) C O d tr) i key h .sign tr2) (step (withMac M H) C O e2 s (.op h (.opRun .sign .final b))).1
        (givesOut b.out n (.bytes (hmacOf H x n v w.flatten))) ∧
      AnswerOr (Waits C (after (withMac M H) C O d tr) i key h .sign tr2) (step (withMac M H) C O e2 s (.op h (.opRun .sign .oneShot b))).1
        (givesOut b.out n (if w = [] then .bytes (hmacOf H x n v b.data) else .err .operationNotInitialized)) := by
  obtain ⟨i2, b1, hf, cm⟩ := mac_ran hH (.inl rfl) hx hs hv hr
  obtain ⟨r, hr1, hr2, hr3, hr4, hr5⟩ := row_mac hx.1 (isMac_mech hx)
  have ok := table_ok hH hx.1
  have hn : n ≤ (HashAlg.mk (H x.1) x.2.1 x.2.2).hlen := isMac_le hx
  have al := row_alg (H := H) hr2 hr3 hr4
  constructor
  · obtain ⟨sl, y, g1, g2, g3⟩ := step_opRun i2 hl e2 .sign .final b
    rw [g3]
    show AnswerOr _ (fnSign _ C e2 .final b y sl.token).1 _
    rcases (b1 w rfl j sl y g1 g2).get hf with ⟨g, lg⟩ | ⟨op, g, o, rfl, f, u, sg⟩
    · exact .inr ⟨by unfold fnSign; rw [g], waits_of cm g1 g2 lg⟩
    · refine .inl ?_
      unfold fnSign
      rw [g]
      simp only
      rw [len_mac hr1 .sign .final o (f.alg.trans al.symm), run_mac hr1 _ .sign .final o (f.alg.trans al.symm), f.outlen]
      unfold givesOut
      simp only
      cases b.out with
      | none => rfl
      | some c =>
        simp only
        split
        · rfl
        · have z := mac_final ok hn f
          simp only [hmacRun]
          rw [z]
          rfl
  · obtain ⟨sl, y, g1, g2, g3⟩ := step_opRun i2 hl e2 .sign .oneShot b
    rw [g3]
    show AnswerOr _ (fnSign _ C e2 .oneShot b y sl.token).1 _
    rcases (b1 w rfl j sl y g1 g2).get hf with ⟨g, lg⟩ | ⟨op, g, o, rfl, f, u, sg⟩
    · exact .inr ⟨by unfold fnSign; rw [g], waits_of cm g1 g2 lg⟩
    · refine .inl ?_
      unfold fnSign
      rw [g]
      simp only
      rw [len_mac hr1 .sign .oneShot o (f.alg.trans al.symm), run_mac hr1 _ .sign .oneShot o (f.alg.trans al.symm), f.outlen]
      unfold givesOut
      simp only
      cases b.out with
      | none => rfl
      | some c =>
        simp only
        split
        · rfl
        · have st := mac_started f u b.data
          simp only [hmacRun, f.outlen]
          unfold Hmac.mac
          by_cases hw0 : w = []
          · obtain ⟨s1, s2, s3, -⟩ := st.2 hw0
            rw [if_pos hw0, s1]
            simp only
            have z := (fed_final ok hn s3).1
            generalize o.update b.data = p at s2 s3 z
            obtain ⟨r, o'⟩ := p
            simp only at s2 z
            subst s2
            simp only
            rw [z]
            rfl
          · rw [if_neg hw0, st.1 hw0]

/-- How a check of signature `s` against the right value ends. -/
theorem verifyFinal_is {a : HashAlg} (ha : HashOk a) (hn : n ≤ a.hlen) {msg : Bytes} {o : Hmac} (f : Fed a v n msg o) (sg : Bytes) :
    (o.verifyFinal sg).1 = if sg = (hmac a v msg).take n then .ok () else .error .signatureInvalid := by
  have z := mac_final ha hn f
  unfold Hmac.verifyFinal
  generalize o.finalize o.outlen = p at z
  obtain ⟨r, o'⟩ := p
  simp only at z
  subst z
  simp only
  by_cases hq : sg = (hmac a v msg).take n
  · rw [if_pos hq, if_pos hq.symm]
  · rw [if_neg hq, if_neg (Ne.symm hq)]

theorem verifySigFinal_is {a : HashAlg} (ha : HashOk a) (hn : n ≤ a.hlen) {msg : Bytes} {o : Hmac} (f : Fed a v n msg o) {sg : Bytes} (hg : o.sig = some sg) :
    (o.verifySigFinal).1 = if sg = (hmac a v msg).take n then .ok () else .error .signatureInvalid := by
  have z := fed_final ha hn f
  unfold Hmac.verifySigFinal
  rw [f.outlen]
  generalize o.finalize n = p at z
  obtain ⟨r, o'⟩ := p
  simp only at z
  obtain ⟨z, -, z2⟩ := z
  subst z
  simp only
  rw [z2, hg]
  simp only
  by_cases hq : sg = (hmac a v msg).take n
  · rw [if_pos hq, if_pos hq.symm]
  · rw [if_neg hq, if_neg (Ne.symm hq)]

/-- The answer of a check. -/
def Spec.sigAnswer (b : Prop) [Decidable b] : Out := if b then .ok else .err .signatureInvalid

theorem quietly_out {p : Res Unit × Hmac} {b : Prop} [Decidable b] (h : p.1 = if b then .ok () else .error .signatureInvalid) :
    (match (quietly p).1 with
      | .error r => Out.err r
      | .ok _ => Out.of (.ok ())) = sigAnswer b := by
  obtain ⟨r, o⟩ := p
  simp only at h
  subst h
  unfold sigAnswer
  by_cases hb : b
  · rw [if_pos hb, if_pos hb]; rfl
  · rw [if_neg hb, if_neg hb]; rfl

theorem quietly_err {p : Res Unit × Hmac} {r : Rv} (h : p.1 = .error r) :
    (match (quietly p).1 with
      | .error r => Out.err r
      | .ok _ => Out.of (.ok ())) = .err r := by
  obtain ⟨r', o⟩ := p
  simp only at h
  subst h
  rfl

/-- The answer of a verification call with an HMAC. -/
theorem fnVerify_mac {k : OpKind} {a : Act} {b : OpIn} {y : Session} {t : Token} {r : HashRow} {o : Hmac} (e : Env) (hr : macRow m = some r)
    (ho : o.alg = r.alg H) (g : y.getOp k = .ok (macOp m o)) :
    (fnVerify (withMac M H) C e k a b y t).1 = if k = .verify ∧ b.sig.length ≠ o.outlen then .err .signatureLenRange
      else match (hmacRun k a o b).1 with
        | .error r => .err r
        | .ok _ => Out.of (.ok ()) := by
  unfold fnVerify
  rw [g]
  simp only
  rw [len_mac hr k a o ho, run_mac hr _ k a o ho]
  simp only
  by_cases hk : k = .verify
  · rw [if_pos hk]
    by_cases hl : b.sig.length = o.outlen
    · rw [if_neg (fun c => c hl.symm), if_neg (fun c => c.2 hl)]
      simp only
      cases (hmacRun k a o b).1 <;> rfl
    · rw [if_pos (fun c => hl c.symm), if_pos ⟨hk, hl⟩]
  · rw [if_neg hk, if_neg (fun c => hk c.1)]
    simp only
    cases (hmacRun k a o b).1 <;> rfl

/-- **C84**, verification: a signature of another length is CKR_SIGNATURE_LEN_RANGE; otherwise C_VerifyFinal accepts exactly the HMAC of the parts, and C_Verify exactly the HMAC of its
data if there was no part before. -/
theorem C84_verify (hH : HashLens H) (hx : IsMac m q x n) (hs : onSlot (withMac M H) C O (after (withMac M H) C O d tr) h i)
    (hv : Seen C (after (withMac M H) C O d tr) i key fun o => o.getBytes CKA_VALUE = .ok v)
    (hr : Ran (withMac M H) C O d tr e h .verify m q key sig tr2 w s) (hl : onSlot (withMac M H) C O s h j) (e2 : Env) (b : OpIn) :
    AnswerOr (Waits C (after (withMac M H) C O d tr) i key h .verify tr2) (step (withMac M H) C O e2 s (.op h (.opRun .verify .final b))).1
        (if b.sig.length ≠ n then .err .signatureLenRange else sigAnswer (b.sig = hmacOf H x n v w.flatten)) ∧
      AnswerOr (Waits C (after (withMac M H) C O d tr) i key h .verify tr2) (step (withMac M H) C O e2 s (.op h (.opRun .verify .oneShot b))).1
        (if b.sig.length ≠ n then .err .signatureLenRange
          else if w = [] then sigAnswer (b.sig = hmacOf H x n v b.data) else .err .operationNotInitialized) := by
  obtain ⟨i2, b1, hf, cm⟩ := mac_ran hH (.inr (.inl rfl)) hx hs hv hr
  obtain ⟨r, hr1, hr2, hr3, hr4, hr5⟩ := row_mac hx.1 (isMac_mech hx)
  have ok := table_ok hH hx.1
  have hn : n ≤ (HashAlg.mk (H x.1) x.2.1 x.2.2).hlen := isMac_le hx
  have al := row_alg (H := H) hr2 hr3 hr4
  constructor
  · obtain ⟨sl, y, g1, g2, g3⟩ := step_opRun i2 hl e2 .verify .final b
    rw [g3]
    show AnswerOr _ (fnVerify _ C e2 .verify .final b y sl.token).1 _
    rcases (b1 w rfl j sl y g1 g2).get hf with ⟨g, lg⟩ | ⟨op, g, o, rfl, f, u, sg⟩
    · exact .inr ⟨by unfold fnVerify; rw [g], waits_of cm g1 g2 lg⟩
    · refine .inl ?_
      rw [fnVerify_mac e2 hr1 (f.alg.trans al.symm) g, f.outlen]
      by_cases hb : b.sig.length = n
      · rw [if_neg (fun c => c.2 hb), if_neg (fun c => c hb)]
        exact quietly_out (verifyFinal_is ok hn f b.sig)
      · rw [if_pos ⟨rfl, hb⟩, if_pos hb]
  · obtain ⟨sl, y, g1, g2, g3⟩ := step_opRun i2 hl e2 .verify .oneShot b
    rw [g3]
    show AnswerOr _ (fnVerify _ C e2 .verify .oneShot b y sl.token).1 _
    rcases (b1 w rfl j sl y g1 g2).get hf with ⟨g, lg⟩ | ⟨op, g, o, rfl, f, u, sg⟩
    · exact .inr ⟨by unfold fnVerify; rw [g], waits_of cm g1 g2 lg⟩
    · refine .inl ?_
      rw [fnVerify_mac e2 hr1 (f.alg.trans al.symm) g, f.outlen]
      have st := mac_started f u b.data
      by_cases hb : b.sig.length = n
      · rw [if_neg (fun c => c.2 hb), if_neg (fun c => c hb)]
        by_cases hw0 : w = []
        · obtain ⟨s1, s2, s3, -⟩ := st.2 hw0
          rw [if_pos hw0]
          refine quietly_out ?_
          have z := verifyFinal_is ok hn s3 b.sig
          unfold Hmac.verify
          rw [s1]
          simp only
          generalize o.update b.data = p at s2 s3 z
          obtain ⟨r, o'⟩ := p
          simp only at s2 z
          subst s2
          exact z
        · rw [if_neg hw0]
          refine quietly_err ?_
          unfold Hmac.verify
          rw [st.1 hw0]
      · rw [if_pos ⟨rfl, hb⟩, if_pos hb]

/-- **C84**, verification of a signature given at the start: its length is right, C_VerifySignatureFinal accepts exactly if it is the HMAC of the parts, and C_VerifySignature exactly if it is the
HMAC of its data and there was no part before. -/
theorem C84_verifySig (hH : HashLens H) (hx : IsMac m q x n) (hs : onSlot (withMac M H) C O (after (withMac M H) C O d tr) h i)
    (hv : Seen C (after (withMac M H) C O d tr) i key fun o => o.getBytes CKA_VALUE = .ok v)
    (hr : Ran (withMac M H) C O d tr e h .verifySig m q key sig tr2 w s) (hl : onSlot (withMac M H) C O s h j) (e2 : Env) (b : OpIn) :
    AnswerOr (Waits C (after (withMac M H) C O d tr) i key h .verifySig tr2) (step (withMac M H) C O e2 s (.op h (.opRun .verifySig .final b))).1
        (sigAnswer (sig = hmacOf H x n v w.flatten)) ∧
      AnswerOr (Waits C (after (withMac M H) C O d tr) i key h .verifySig tr2) (step (withMac M H) C O e2 s (.op h (.opRun .verifySig .oneShot b))).1
        (if w = [] then sigAnswer (sig = hmacOf H x n v b.data) else .err .operationNotInitialized) := by
  obtain ⟨i2, b1, hf, cm⟩ := mac_ran hH (.inr (.inr rfl)) hx hs hv hr
  obtain ⟨r, hr1, hr2, hr3, hr4, hr5⟩ := row_mac hx.1 (isMac_mech hx)
  have ok := table_ok hH hx.1
  have hn : n ≤ (HashAlg.mk (H x.1) x.2.1 x.2.2).hlen := isMac_le hx
  have al := row_alg (H := H) hr2 hr3 hr4
  constructor
  · obtain ⟨sl, y, g1, g2, g3⟩ := step_opRun i2 hl e2 .verifySig .final b
    rw [g3]
    show AnswerOr _ (fnVerify _ C e2 .verifySig .final b y sl.token).1 _
    rcases (b1 w rfl j sl y g1 g2).get hf with ⟨g, lg⟩ | ⟨op, g, o, rfl, f, u, sg⟩
    · exact .inr ⟨by unfold fnVerify; rw [g], waits_of cm g1 g2 lg⟩
    · refine .inl ?_
      rw [fnVerify_mac e2 hr1 (f.alg.trans al.symm) g, if_neg (fun c => nomatch c.1)]
      exact quietly_out (verifySigFinal_is ok hn f sg)
  · obtain ⟨sl, y, g1, g2, g3⟩ := step_opRun i2 hl e2 .verifySig .oneShot b
    rw [g3]
    show AnswerOr _ (fnVerify _ C e2 .verifySig .oneShot b y sl.token).1 _
    rcases (b1 w rfl j sl y g1 g2).get hf with ⟨g, lg⟩ | ⟨op, g, o, rfl, f, u, sg⟩
    · exact .inr ⟨by unfold fnVerify; rw [g], waits_of cm g1 g2 lg⟩
    · refine .inl ?_
      rw [fnVerify_mac e2 hr1 (f.alg.trans al.symm) g, if_neg (fun c => nomatch c.1)]
      have st := mac_started f u b.data
      by_cases hw0 : w = []
      · obtain ⟨s1, s2, s3, s4⟩ := st.2 hw0
        rw [if_pos hw0]
        refine quietly_out ?_
        have z := verifySigFinal_is ok hn s3 (s4.trans sg)
        unfold Hmac.verifySigAll
        rw [s1]
        simp only
        generalize o.update b.data = p at s2 s3 z
        obtain ⟨r, o'⟩ := p
        simp only at s2 z
        subst s2
        exact z
      · rw [if_neg hw0]
        refine quietly_err ?_
        unfold Hmac.verifySigAll
        rw [st.1 hw0]

/-- After a successful start every session with the handle has the new digest. -/
theorem digest_begun {s : St} (hi : Inv s) {e : Env} {h key : Nat} {q sig : Bytes} {x : Nat × Nat × Nat} (hx : x ∈ hashTable)
    (hok : (step (withMac M H) C O e s (.op h (.opInit .digest (some (x.1, q)) key sig))).1 = .ok) :
    Bearing h .digest (DigestIs ⟨H x.1, x.2.1, x.2.2⟩ x.1) (some [])
      (step (withMac M H) C O e s (.op h (.opInit .digest (some (x.1, q)) key sig))).2 := by
  intro w hw j sl' y g1 g2
  injection hw with hw; subst hw
  have mv := step_sess hi g1 g2
  generalize (step (withMac M H) C O e s (.op h (.opInit .digest (some (x.1, q)) key sig))).1 = a at mv hok
  subst hok
  generalize hc : Call.op h (.opInit .digest (some (x.1, q)) key sig) = c at mv
  generalize hr : Out.ok = r at mv
  cases mv with
  | opened => cases hc
  | kept c a sl z _ _ _ hc1 => exact absurd hc.symm (hc1 _)
  | loggedIn => cases hc
  | sess => cases hc
  | op oc sl z hg hyy =>
    injection hc with _ hc; subst hc
    unfold opStep at hr hyy
    simp only at hr hyy
    rw [if_pos trivial] at hr hyy
    have ok : (fnInitDigest (withMac M H) e x.1 q z sl.token).1 = .ok () := by
      cases hz : (fnInitDigest (withMac M H) e x.1 q z sl.token).1 with
      | ok u => rfl
      | error r => rw [hz] at hr; cases hr
    rw [hyy]
    obtain ⟨h0, r, hr1, hr2, hr3, hr4⟩ := row_digest hx
    unfold fnInitDigest at ok ⊢
    repeat' split at ok
    all_goals first | (cases ok; done) | skip
    rename_i h1 h2 _ h3 _ op h4
    simp only [h1, if_neg h2, h3, h4]
    have e1 : (withMac M H).new (e.sub 1) .digest x.1 q none [] = .ok (digestOp x.1 (HashOp.new (r.alg H))) := by
      show (match macRow x.1 with
        | some r => _
        | none => match digestRow x.1 with
          | some r => _
          | none => _) = _
      rw [h0, hr1]
    have e2 : op = digestOp x.1 (HashOp.new (r.alg H)) := by
      unfold newOp at h4
      simp only at h4
      split at h4
      · cases h4
      · rw [e1] at h4
        injection h4 with h4
        exact h4.symm
    refine ⟨nofun, op, ?_, ?_⟩
    · show AMap.get (AMap.insert z.ops .digest op) .digest = _
      rw [AMap.get_insert, if_pos rfl]
    · rw [e2, row_alg hr2 hr3 hr4]
      rfl

/-- The answer of a digest call. -/
theorem fnDigest_is {a : Act} {b : OpIn} {y : Session} {r : HashRow} {o : HashOp} (e : Env) (h0 : macRow m = none) (hr : digestRow m = some r)
    (ho : o.alg = r.alg H) (g : y.getOp .digest = .ok (digestOp m o)) :
    (fnDigest (withMac M H) e a b y).1 = givesOut b.out r.size (Out.ofBytes (digestRun .digest a o b).1) := by
  unfold fnDigest
  rw [g]
  simp only
  rw [len_digest h0 hr, run_digest h0 hr _ _ a o ho]
  unfold givesOut
  simp only
  cases b.out with
  | none => rfl
  | some c =>
    simp only
    split <;> rfl

/-- **C84**, digests: C_DigestFinal gives the hash of the parts put together, C_Digest the hash of its data if there was no part before; lengths as above. -/
theorem C84_digest (hx : x ∈ hashTable) (hs : onSlot (withMac M H) C O (after (withMac M H) C O d tr) h i)
    (hr : Ran (withMac M H) C O d tr e h .digest x.1 q key sig tr2 w s) (hl : onSlot (withMac M H) C O s h j) (e2 : Env) (b : OpIn) :
    AnswerOr (Waits C (after (withMac M H) C O d tr) i key h .digest tr2) (step (withMac M H) C O e2 s (.op h (.opRun .digest .final b))).1
        (givesOut b.out x.2.1 (.bytes (H x.1 w.flatten))) ∧
      AnswerOr (Waits C (after (withMac M H) C O d tr) i key h .digest tr2) (step (withMac M H) C O e2 s (.op h (.opRun .digest .oneShot b))).1
        (givesOut b.out x.2.1 (if w = [] then .bytes (H x.1 b.data) else .err .operationNotInitialized)) := by
  have i0 := inv_reach (withMac M H) (C := C) O d tr
  have i1 := inv_step (withMac M H) (C := C) O e _ (.op h (.opInit .digest (some (x.1, q)) key sig)) i0
  have b0 := digest_begun i0 hx hr.started
  obtain ⟨h0, r, hr1, hr2, hr3, hr4⟩ := row_digest hx
  have hf := digest_follows (M := M) (H := H) h0 hr1 .digest
  have al := row_alg (H := H) hr2 hr3 hr4
  rw [al] at hf
  have b1 := bearing_run (C := C) (O := O) (.inr (.inr (.inr rfl))) hf tr2 i1 b0
  have i2 := inv_run (withMac M H) (C := C) O tr2 _ i1
  have p := hr.parts
  unfold fedIn at p
  rw [p, ← hr.ends] at b1
  rw [← hr.ends] at i2
  have cm : ¬ Waits C (after (withMac M H) C O d tr) i key h .digest tr2 → Calm h s := by
    intro hn
    rw [hr.ends]
    exact calm_run tr2 i1 (fun p hp hc => hn (.inr ⟨p, hp, hc⟩)) (mac_calm i0 nofun ((onSlot_iff i0).1 hs) nofun hr.started)
  constructor
  · obtain ⟨sl, y, g1, g2, g3⟩ := step_opRun i2 hl e2 .digest .final b
    rw [g3]
    show AnswerOr _ (fnDigest _ e2 .final b y).1 _
    rcases (b1 w rfl j sl y g1 g2).get hf with ⟨g, lg⟩ | ⟨op, g, rfl⟩
    · exact .inr ⟨by unfold fnDigest; rw [g], waits_of cm g1 g2 lg⟩
    · refine .inl ?_
      rw [fnDigest_is e2 h0 hr1 al.symm g, hr3]
      simp only [digestRun, HashOp.final]
      rw [if_pos trivial, if_neg (by simp), if_neg (fun c => c rfl)]
      rfl
  · obtain ⟨sl, y, g1, g2, g3⟩ := step_opRun i2 hl e2 .digest .oneShot b
    rw [g3]
    show AnswerOr _ (fnDigest _ e2 .oneShot b y).1 _
    rcases (b1 w rfl j sl y g1 g2).get hf with ⟨g, lg⟩ | ⟨op, g, rfl⟩
    · exact .inr ⟨by unfold fnDigest; rw [g], waits_of cm g1 g2 lg⟩
    · refine .inl ?_
      rw [fnDigest_is e2 h0 hr1 al.symm g, hr3]
      simp only [digestRun, HashOp.digest]
      rw [if_pos trivial]
      by_cases hw0 : w = []
      · subst hw0
        rw [if_pos rfl, if_neg (by simp), if_neg (fun c => c rfl)]
        rfl
      · rw [if_neg hw0, if_pos]
        · rfl
        · cases w with
          | nil => exact absurd rfl hw0
          | cons c l => rfl

/-- **C84**, parameters.  If a start with an HMAC mechanism of hash `x` succeeds, its parameter is one that `IsMac` allows, and a signature given at the start has the length that goes with it.  With the
same key and mechanism in the same state, every other parameter that `IsMac` allows is taken too, and any other is refused with CKR_MECHANISM_PARAM_INVALID. -/
theorem C84_param {k : OpKind} (hk : macKind k) (hx : x ∈ hashTable) (hm : m = x.1 + 1 ∨ m = x.1 + 2)
    (hok : (step (withMac M H) C O e s (.op h (.opInit k (some (m, q)) key sig))).1 = .ok) :
    (∃ n, IsMac m q x n ∧ (k = .verifySig → sig.length = n)) ∧
      (∀ q' sig' n', IsMac m q' x n' → (step (withMac M H) C O e s (.op h (.opInit k (some (m, q')) key sig'))).1 =
        if k = .verifySig ∧ sig'.length ≠ n' then .err .signatureLenRange else .ok) ∧
      ∀ q' sig', (¬ ∃ n, IsMac m q' x n) →
        (step (withMac M H) C O e s (.op h (.opInit k (some (m, q')) key sig'))).1 = .err .mechanismParamInvalid := by
  have kd : k ≠ .digest := by rcases hk with hk | hk | hk <;> rw [hk] <;> nofun
  unfold step at hok ⊢
  simp only at hok ⊢
  cases hg : s.getSession h with
  | error r => rw [hg] at hok; cases hok
  | ok p =>
    obtain ⟨i, sl, y⟩ := p
    rw [hg] at hok
    unfold opStep at hok ⊢
    simp only [if_neg kd] at hok ⊢
    have ok : (fnInitKey (withMac M H) C e k m q key sig y sl.token).1 = .ok () := by
      cases hz : (fnInitKey (withMac M H) C e k m q key sig y sl.token).1 with
      | ok u => rfl
      | error r => rw [hz] at hok; cases hok
    obtain ⟨o, p1, ⟨op, p2, p3⟩, p4⟩ := initKey_read ok
    obtain ⟨r, hr1, hr2, hr3, hr4, hr5⟩ := row_mac hx hm
    obtain ⟨v, q1, ⟨n, ho, q2, q3, q4⟩, q5⟩ := newOp_mac hr1 _ p2
    have mp := fun q' => macParam_is hx hm hr3 hr5 q'
    have len : ∀ (n : Nat) (sg : Bytes), (match Hmac.new (r.alg H) v n (startSig k sg) with
        | .error r => .error r
        | .ok _ => .ok () : Res Unit) = if k = .verifySig ∧ sg.length ≠ n then .error .signatureLenRange else .ok () := by
      intro n sg
      unfold startSig Hmac.new
      by_cases h1 : k = .verifySig
      · rw [if_pos h1]
        simp only
        by_cases h2 : sg.length = n
        · rw [if_neg (fun c => c h2), if_neg (fun c => c.2 h2)]
        · rw [if_pos h2, if_pos ⟨h1, h2⟩]
      · rw [if_neg h1, if_neg (fun c => h1 c.1)]
    refine ⟨⟨n, ((mp q).1 n).1 q2, ?_⟩, ?_, ?_⟩
    · intro h1
      have l := len n sig
      rw [q3] at l
      simp only at l
      by_cases h2 : sig.length = n
      · exact h2
      · rw [if_pos ⟨h1, h2⟩] at l; cases l
    · intro q' sig' n' hn
      rw [p4, q5, ((mp q').1 n').2 hn]
      simp only
      rw [len]
      split <;> rfl
    · intro q' sig' hn
      rw [p4, q5, (mp q').2 hn]
      rfl

/-! ## Ended operations -/

theorem finalize_fin {o o' : Hmac} {n : Nat} {b : Bytes} (h : o.finalize n = (.ok b, o')) : o'.fin = true := by
  unfold Hmac.finalize at h
  split at h
  · injection h with h _; exact nomatch h
  · simp only at h
    split at h
    · injection h with h _; exact nomatch h
    · injection h with _ h; rw [← h]

theorem quietly_fin {p : Res Unit × Hmac} {b : Bytes} {o' : Hmac} (h : quietly p = (.ok b, o')) : p.1 = .ok () ∧ p.2 = o' := by
  unfold quietly at h
  injection h with h1 h2
  refine ⟨?_, h2⟩
  split at h1
  · exact nomatch h1
  · assumption

theorem verifyFinal_fin {o : Hmac} {sg : Bytes} (h : (o.verifyFinal sg).1 = .ok ()) : (o.verifyFinal sg).2.fin = true := by
  unfold Hmac.verifyFinal at h ⊢
  have f := @finalize_fin o (o.finalize o.outlen).2 o.outlen
  generalize o.finalize o.outlen = p at h f ⊢
  obtain ⟨r, o1⟩ := p
  cases r with
  | error r => exact nomatch h
  | ok v => exact f (b := v) rfl

theorem verifySigFinal_fin {o : Hmac} (h : o.verifySigFinal.1 = .ok ()) : o.verifySigFinal.2.fin = true := by
  unfold Hmac.verifySigFinal at h ⊢
  have f := @finalize_fin o (o.finalize o.outlen).2 o.outlen
  generalize o.finalize o.outlen = p at h f ⊢
  obtain ⟨r, o1⟩ := p
  cases r with
  | error r => exact nomatch h
  | ok v =>
    simp only at h f ⊢
    cases hs : o1.sig with
    | none => rw [hs] at h; exact nomatch h
    | some s => exact f (b := v) rfl

theorem seq_fin {α : Type} (o : Hmac) (d : Bytes) (f : Hmac → Res α × Hmac) (hf : ∀ o v, (f o).1 = .ok v → (f o).2.fin = true) (v : α) :
    (match o.start with
      | .error r => (.error r, o)
      | .ok () => match (o.update d).1 with
        | .error r => (.error r, (o.update d).2)
        | .ok () => f (o.update d).2 : Res α × Hmac).1 = .ok v →
    (match o.start with
      | .error r => (.error r, o)
      | .ok () => match (o.update d).1 with
        | .error r => (.error r, (o.update d).2)
        | .ok () => f (o.update d).2 : Res α × Hmac).2.fin = true := by
  intro h
  split at h
  · exact nomatch h
  · split at h
    · exact nomatch h
    · exact hf _ _ h

theorem hmac_ends {k : OpKind} {a : Act} {o : Hmac} {i : OpIn} {b : Bytes} (ha : a ≠ .update) (h : (hmacRun k a o i).1 = .ok b) :
    (hmacRun k a o i).2.fin = true := by
  have q : ∀ p : Res Unit × Hmac, (quietly p).1 = .ok b → p.1 = .ok () := fun p h => (quietly_fin (p := p) (b := b) (o' := p.2) (by rw [← h]; rfl)).1
  unfold hmacRun at h ⊢
  split at h
  · exact absurd rfl ha
  · split at h
    · exact seq_fin o i.data (fun o' => o'.finalize o.outlen) (fun o' v h => finalize_fin (b := v) (Prod.ext h rfl)) b h
    · exact seq_fin o i.data (fun o' => o'.verifyFinal i.sig) (fun o' v h => verifyFinal_fin h) () (q _ h)
    · exact seq_fin o i.data (fun o' => o'.verifySigFinal) (fun o' v h => verifySigFinal_fin h) () (q _ h)
    · exact nomatch h
  · split at h
    · exact finalize_fin (b := b) (Prod.ext h rfl)
    · exact verifyFinal_fin (q _ h)
    · exact verifySigFinal_fin (q _ h)
    · exact nomatch h

theorem update_fin {o : Hmac} {d : Bytes} : (o.update d).2.fin = o.fin := by
  unfold Hmac.update
  split <;> rfl

theorem digest_ends {k : OpKind} {a : Act} {o : HashOp} {i : OpIn} {b : Bytes} (ha : a ≠ .update) (h : (digestRun k a o i).1 = .ok b) :
    k = .digest ∧ (digestRun k a o i).2.fin = true := by
  unfold digestRun at h ⊢
  split at h
  · exact absurd rfl ha
  all_goals
    split at h
    · rename_i hk
      refine ⟨hk, ?_⟩
      simp only [hk, if_true]
      first | unfold HashOp.digest at h ⊢ | unfold HashOp.final at h ⊢
      split at h
      · exact nomatch h
      · split at h
        · exact nomatch h
        · simp_all
    · exact nomatch h

theorem hmac_kind {k : OpKind} {a : Act} {o : Hmac} {i : OpIn} {b : Bytes} (ha : a ≠ .update) (h : (hmacRun k a o i).1 = .ok b) : manyMessages k = false := by
  unfold hmacRun at h
  split at h
  · exact absurd rfl ha
  all_goals
    split at h
    · rfl
    · rfl
    · rfl
    · exact nomatch h

/-- The law of C22 holds for HMAC and digests: they end with a final or one-call function, and not before. -/
theorem withMac_lawful (hM : Lawful M) : Lawful (withMac M H) where
  ends := by
    intro e k a op i b op' hk ha h
    have hu : a ≠ .update := by rcases ha with rfl | rfl <;> nofun
    change (match macRow op.mech with
      | some r => _
      | none => match digestRow op.mech with
        | some r => _
        | none => _) = _ at h
    cases hm : macRow op.mech with
    | some r =>
      rw [hm] at h
      injection h with h1 h2
      rw [← h2]
      exact hmac_ends hu h1
    | none =>
      rw [hm] at h
      simp only at h
      cases hd : digestRow op.mech with
      | some r =>
        rw [hd] at h
        injection h with h1 h2
        rw [← h2]
        exact (digest_ends hu h1).2
      | none =>
        rw [hd] at h
        exact hM.ends e k a op i b op' hk ha h
  goes := by
    intro e k a op i b op' hk h
    change (match macRow op.mech with
      | some r => _
      | none => match digestRow op.mech with
        | some r => _
        | none => _) = _ at h
    cases hm : macRow op.mech with
    | some r =>
      rw [hm] at h
      injection h with h1 h2
      rw [← h2]
      by_cases hu : a = .update
      · subst hu
        exact update_fin
      · rcases hk with hk | hk
        · rw [hmac_kind hu h1] at hk; exact nomatch hk
        · exact absurd hk hu
    | none =>
      rw [hm] at h
      simp only at h
      cases hd : digestRow op.mech with
      | some r =>
        rw [hd] at h
        injection h with h1 h2
        rw [← h2]
        by_cases hu : a = .update
        · subst hu
          show (HashOp.update _ _).2.fin = _
          unfold HashOp.update
          split <;> rfl
        · rcases hk with hk | hk
          · rw [(digest_ends hu h1).1] at hk; exact nomatch hk
          · exact absurd hk hu
      | none =>
        rw [hd] at h
        exact hM.goes e k a op i b op' hk h
  asks := by
    intro k a op n m op' h
    change (match macRow op.mech with
      | some r => _
      | none => match digestRow op.mech with
        | some r => _
        | none => _) = _ at h
    cases hm : macRow op.mech with
    | some r => rw [hm] at h; injection h with _ h2; rw [← h2]
    | none =>
      rw [hm] at h
      simp only at h
      cases hd : digestRow op.mech with
      | some r => rw [hd] at h; injection h with _ h2; rw [← h2]
      | none => rw [hd] at h; exact hM.asks k a op n m op' h

/-- **C84**, after the end: once the history of calls and answers shows that no operation of kind `k` goes on in the session, its calls give nothing and change nothing. -/
theorem C84_ended (hM : Lawful M) (d : List (Nat × Db)) (tr : Trace) (h i : Nat) (k : OpKind)
    (hs : onSlot (withMac M H) C O (after (withMac M H) C O d tr) h i)
    (hk : known (hist (withMac M H) C O (St.init d) tr) h (.op k) = .no) (e : Env) (a : Act) (b : OpIn)
    (hc : isCall k a = true) (ha : hasArgs k a b = true) :
    ∃ r, step (withMac M H) C O e (after (withMac M H) C O d tr) (.op h (.opRun k a b)) = (.err r, after (withMac M H) C O d tr) ∧
      (r = .operationNotInitialized ∨ r = .userNotLoggedIn) :=
  C22_idle_run (withMac_lawful hM) d tr h i k hs hk e a b hc ha

/-! ## A case -/

/-- A toy hash with outputs of the right sizes. -/
def toyHash (m : Nat) (b : Bytes) : Bytes :=
  (List.range (((hashTable.find? fun x => x.1 == m).map fun x => x.2.1).getD 0)).map fun i => UInt8.ofNat (b.foldl (fun a c => (a * 31 + c.toNat + 1) % 251) (i + m))

theorem toyHash_lens : HashLens toyHash := by
  have h : hashTable.all (fun x => ((hashTable.find? fun y => y.1 == x.1).map fun y => y.2.1).getD 0 == x.2.1) = true := by decide +kernel
  intro x hx b
  have := List.all_eq_true.1 h x hx
  unfold toyHash
  rw [List.length_map, List.length_range]
  exact beq_iff_eq.1 this

abbrev exMac : Mechs := withMac exMechs toyHash

/-- A generic secret for signing and verification (9), and two sessions. -/
def exMacStart : Trace :=
  [(exEnv 0, .initialize [(7, ⟨[CKM_SHA256_HMAC, CKM_SHA256_HMAC_GENERAL, CKM_SHA256], none, none⟩)]), (exEnv 1, .initToken 7 exSoPin none),
   (exEnv 2, .openSession 7 (CKF_RW_SESSION ||| CKF_SERIAL_SESSION)),
   (exEnv 3, .login 1 CKU_SO exSoPin), (exEnv 4, .sess 1 (.initPin exPin)), (exEnv 5, .logout 1), (exEnv 6, .login 1 CKU_USER exPin),
   (exEnv 7, .sess 1 (.createObject [.ofUlong CKA_CLASS CKO_SECRET_KEY, .ofUlong CKA_KEY_TYPE CKK_GENERIC_SECRET,
     .mk' CKA_VALUE [1, 2, 3], .ofBool CKA_SIGN true, .ofBool CKA_VERIFY true])),
   (exEnv 8, .openSession 7 (CKF_RW_SESSION ||| CKF_SERIAL_SESSION))]

/-- Parts of a signature with other things between them: a digest and a search on the same session, a signature on the other one. -/
def exMacTrace : Trace :=
  [(exEnv 10, .op 1 (.opRun .sign .update { (default : OpIn) with data := [5] })),
   (exEnv 11, .op 1 (.opInit .digest (some (CKM_SHA256, [])) 0 [])),
   (exEnv 12, .op 1 (.opRun .digest .update { (default : OpIn) with data := [9, 9] })),
   (exEnv 13, .op 2 (.opInit .sign (some (CKM_SHA256_HMAC, [])) 9 [])),
   (exEnv 14, .op 2 (.opRun .sign .update { (default : OpIn) with data := [8] })),
   (exEnv 15, .op 1 (.opRun .sign .final { (default : OpIn) with out := some 3 })),
   (exEnv 16, .sess 1 (.findInit [])),
   (exEnv 17, .op 1 (.opRun .sign .update { (default : OpIn) with data := [6, 7] })),
   (exEnv 18, .op 2 (.opRun .sign .final { (default : OpIn) with out := some 100 })),
   (exEnv 19, .op 1 (.opRun .digest .final { (default : OpIn) with out := some 100 })),
   (exEnv 20, .op 1 (.opRun .sign .final { (default : OpIn) with out := none }))]

abbrev exMacSt : St := after exMac exCrypto exOracle [] exMacStart
def exMacParam : Bytes := ulongBytes 4
abbrev exMacMid : St := (step exMac exCrypto exOracle (exEnv 9) exMacSt (.op 1 (.opInit .sign (some (CKM_SHA256_HMAC_GENERAL, exMacParam)) 9 []))).2
abbrev exMacEnd : St := run exMac exCrypto exOracle exMacMid exMacTrace
def exMacObj : Obj := (readAt exCrypto exMacSt 7 9).getD (Obj.new 0)

theorem exMac_is : IsMac CKM_SHA256_HMAC_GENERAL exMacParam (0x250, 32, 64) 4 :=
  ⟨by decide, .inr ⟨by decide, by decide, by decide, by decide, by decide⟩⟩

set_option maxRecDepth 20000 in
theorem exMac_ran : Ran exMac exCrypto exOracle [] exMacStart (exEnv 9) 1 .sign CKM_SHA256_HMAC_GENERAL exMacParam 9 [] exMacTrace [[5], [6, 7]] exMacEnd :=
  ⟨by decide +kernel, by decide +kernel, rfl⟩

set_option maxRecDepth 20000 in
theorem exMac_on : onSlot exMac exCrypto exOracle exMacSt 1 7 := ⟨exEnv 0, .rwUser, CKF_RW_SESSION ||| CKF_SERIAL_SESSION, by decide +kernel⟩

set_option maxRecDepth 20000 in
theorem exMac_end : onSlot exMac exCrypto exOracle exMacEnd 1 7 := ⟨exEnv 0, .rwUser, CKF_RW_SESSION ||| CKF_SERIAL_SESSION, by decide +kernel⟩

set_option maxRecDepth 20000 in
theorem exMac_key : Seen exCrypto exMacSt 7 9 (fun o => o.getBytes CKA_VALUE = .ok [1, 2, 3]) :=
  seen_read (o := exMacObj) (by decide +kernel) (by decide +kernel)

set_option maxRecDepth 20000 in
theorem exMac_calm : ¬ Waits exCrypto exMacSt 7 9 1 .sign exMacTrace := by
  rintro (⟨-, h⟩ | ⟨p, hp, k, mp, key, sig, h, hk⟩)
  · exact h (seen_read (o := exMacObj) (by decide +kernel) (by decide +kernel))
  · simp only [exMacTrace, List.mem_cons, List.mem_nil_iff, or_false] at hp
    rcases hp with hp | hp | hp | hp | hp | hp | hp | hp | hp | hp | hp <;> rw [hp] at h <;>
      first
        | (cases h; done)
        | (injection h with h1 h2; first | (cases h1; done) | (injection h2 with h2; subst h2; rcases hk with hk | hk <;> cases hk))

set_option maxRecDepth 20000 in
/-- `C84_sign` applies: the four bytes are those of the HMAC of 5, 6, 7, which is not that of 5 alone. -/
example : (step exMac exCrypto exOracle (exEnv 21) exMacEnd (.op 1 (.opRun .sign .final { (default : OpIn) with out := some 4 }))).1 =
      .bytes (hmacOf toyHash (0x250, 32, 64) 4 [1, 2, 3] [5, 6, 7]) ∧
    hmacOf toyHash (0x250, 32, 64) 4 [1, 2, 3] [5, 6, 7] ≠ hmacOf toyHash (0x250, 32, 64) 4 [1, 2, 3] [5] := by
  refine ⟨?_, by decide +kernel⟩
  rcases (C84_sign (M := exMechs) (O := exOracle) toyHash_lens exMac_is exMac_on exMac_key exMac_ran exMac_end (exEnv 21)
    { (default : OpIn) with out := some 4 }).1 with h | ⟨-, h⟩
  · exact h
  · exact absurd h exMac_calm

/-- The right signature of [5, 6, 7]. -/
def exMacSig : Bytes := hmacOf toyHash (0x250, 32, 64) 32 [1, 2, 3] [5, 6, 7]

/-- Input of a call. -/
def exIn (d : Bytes) (sig : Bytes := []) (out : Option Nat := none) : OpIn := { (default : OpIn) with data := d, sig := sig, out := out }

set_option maxRecDepth 20000 in
/-- The other theorems apply: a verification in parts and in one call, of a right, a wrong and a short signature; one with the signature first; a digest; parameters that are too long, missing and too large. -/
example : ((outs exMac exCrypto exOracle (St.init []) (exMacStart ++
    [(exEnv 10, .op 1 (.opInit .verify (some (CKM_SHA256_HMAC, [])) 9 [])), (exEnv 11, .op 1 (.opRun .verify .update (exIn [5]))),
     (exEnv 12, .op 1 (.opRun .verify .final (exIn [] [1]))), (exEnv 13, .op 1 (.opRun .verify .update (exIn [6, 7]))),
     (exEnv 14, .op 1 (.opRun .verify .final (exIn [] exMacSig))),
     (exEnv 15, .op 1 (.opInit .verify (some (CKM_SHA256_HMAC, [])) 9 [])), (exEnv 16, .op 1 (.opRun .verify .oneShot (exIn [5, 6] exMacSig))),
     (exEnv 17, .op 1 (.opInit .verifySig (some (CKM_SHA256_HMAC, [])) 9 [1])), (exEnv 17, .op 1 (.opInit .verifySig (some (CKM_SHA256_HMAC, [])) 9 exMacSig)),
     (exEnv 18, .op 1 (.opRun .verifySig .oneShot (exIn [5, 6, 7]))),
     (exEnv 19, .op 1 (.opInit .digest (some (CKM_SHA256, [])) 0 [])), (exEnv 20, .op 1 (.opRun .digest .update (exIn [5]))),
     (exEnv 21, .op 1 (.opRun .digest .oneShot (exIn [6] [] (some 32)))),
     (exEnv 22, .op 1 (.opInit .sign (some (CKM_SHA256_HMAC, [0])) 9 [])), (exEnv 22, .op 1 (.opInit .sign (some (CKM_SHA256_HMAC_GENERAL, [])) 9 [])),
     (exEnv 22, .op 1 (.opInit .sign (some (CKM_SHA256_HMAC_GENERAL, ulongBytes 33)) 9 [])),
     (exEnv 23, .op 1 (.opInit .sign (some (CKM_SHA256_HMAC_GENERAL, ulongBytes 32)) 9 []))])).drop 9) =
  [.ok, .ok, .err .signatureLenRange, .ok, .ok, .ok, .err .signatureInvalid, .err .signatureLenRange, .ok, .ok, .ok, .ok, .err .operationNotInitialized,
   .err .mechanismParamInvalid, .err .mechanismParamInvalid, .err .mechanismParamInvalid, .ok] := by decide +kernel

set_option maxRecDepth 20000 in
/-- The hypotheses of `C84_digest` hold for a digest in two parts. -/
example : Ran exMac exCrypto exOracle [] exMacStart (exEnv 9) 1 .digest CKM_SHA256 [] 0 []
    [(exEnv 10, .op 1 (.opRun .digest .update (exIn [5]))), (exEnv 11, .op 2 (.opInit .digest (some (CKM_SHA256, [])) 0 [])),
     (exEnv 12, .op 1 (.opRun .digest .update (exIn [6])))] [[5], [6]]
    (run exMac exCrypto exOracle (step exMac exCrypto exOracle (exEnv 9) exMacSt (.op 1 (.opInit .digest (some (CKM_SHA256, [])) 0 []))).2
      [(exEnv 10, .op 1 (.opRun .digest .update (exIn [5]))), (exEnv 11, .op 2 (.opInit .digest (some (CKM_SHA256, [])) 0 [])),
       (exEnv 12, .op 1 (.opRun .digest .update (exIn [6])))]) ∧ ((0x250, 32, 64) : Nat × Nat × Nat) ∈ hashTable ∧ CKM_SHA256 = 0x250 :=
  ⟨⟨by decide +kernel, by decide +kernel, rfl⟩, by decide, by decide⟩

set_option maxRecDepth 20000 in
/-- The hypotheses of `C84_ended` hold after a signature in one call, and its conclusion for a further part. -/
example : Lawful exMechs ∧
    known (hist exMac exCrypto exOracle (St.init []) (exMacStart ++ [(exEnv 10, .op 1 (.opInit .sign (some (CKM_SHA256_HMAC, [])) 9 [])),
      (exEnv 11, .op 1 (.opRun .sign .oneShot (exIn [5] [] (some 32))))])) 1 (.op .sign) = .no ∧
    (outs exMac exCrypto exOracle (St.init []) (exMacStart ++ [(exEnv 10, .op 1 (.opInit .sign (some (CKM_SHA256_HMAC, [])) 9 [])),
      (exEnv 11, .op 1 (.opRun .sign .oneShot (exIn [5] [] (some 32)))), (exEnv 12, .op 1 (.opRun .sign .update (exIn [6])))])).drop 11 =
      [.err .operationNotInitialized] ∧
    isCall .sign .update = true ∧ hasArgs .sign .update (exIn [6]) = true :=
  ⟨exMechs_lawful, by decide +kernel, by decide +kernel, by decide, by decide⟩

end Kry
