import Verif.Proofs.Messages
import Verif.Proofs.Dead
import Verif.Proofs.KeyFacts
import Verif.Props.MachineEx
import Verif.Props.Sessions

/-!
# C43: the order of the calls of message operations

The notebook `message` (`Spec/Messages.lean`) tells from calls and answers whether a message of a message encryption or
decryption is open.  `C43_next_partial`: while none is open, C_EncryptMessageNext and C_DecryptMessageNext fail without
effect.  `C43_between`: while one is open, the one-shot calls, Begin and C_MessageEncryptFinal/C_MessageDecryptFinal fail
without effect.  Both for every mechanism and every history.

What is missing: after a failed one-shot or Begin call without an open message the notebook says `maybe`, and
`C43_violation` shows that the code may then accept C_EncryptMessageNext although no message was ever begun.
-/

namespace Kry
open Spec

variable {M : Mechs} {C : Crypto} {O : Oracle}

/-- A call of a message operation that leaves the session alone leaves everything alone. -/
theorem message_still {s : St} (hi : Inv s) {i h : Nat} {sl : Slot} {x : Session} (hg : s.getSession h = .ok (i, sl, x))
    (h1 : AMap.get s.slots i = some sl) (h2 : AMap.get sl.sessions h = some x)
    {e : Env} {k : OpKind} (hk : manyMessages k = true) {a : Act} {inp : OpIn} {r : Rv}
    (hm : fnMessage M e k a inp x sl.token = (.err r, x)) :
    step M C O e s (.op h (.opRun k a inp)) = (.err r, s) := by
  unfold step
  simp only [hg, opStep, fnOpRun]
  cases k <;> first | (cases hk; done) | skip
  all_goals
    simp only [hm]
    rw [setSlot_same hi h1 h2]

/-- **C43**: while no message is open, the calls that continue one fail and change nothing. -/
theorem C43_next_partial (d : List (Nat × Db)) (tr : Trace) (h i : Nat) (k : OpKind) (hk : manyMessages k = true)
    (hs : onSlot M C O (after M C O d tr) h i)
    (hno : message (hist M C O (St.init d) tr) h k = .no) (e : Env) (a : Act) (ha : a = .next ∨ a = .last) (inp : OpIn) :
    ∃ r, step M C O e (after M C O d tr) (.op h (.opRun k a inp)) = (.err r, after M C O d tr) := by
  have hi : Inv (after M C O d tr) := inv_reach M O d tr
  have hkn : MInv (message (hist M C O (St.init d) tr)) (after M C O d tr) := msg_reach d tr
  generalize after M C O d tr = s at *
  obtain ⟨sl, x, hg, h1, h2⟩ := getSession_live hi ((onSlot_iff hi).1 hs)
  have ag := hkn i sl h x h1 h2
  have : ∃ r, fnMessage M e k a inp x sl.token = (.err r, x) := by
    rcases ha with rfl | rfl
    all_goals
      unfold fnMessage
      simp only
      split
      · exact ⟨_, rfl⟩
      split
      · exact ⟨_, rfl⟩
      rename_i op ho
      obtain ⟨g1, g2⟩ := getOp_get ho
      rw [((ag k hk op g1 g2).1 hno)]
      exact ⟨_, rfl⟩
  obtain ⟨r, hr⟩ := this
  exact ⟨r, message_still hi hg h1 h2 hk hr⟩

/-- **C43**: while a message is open, one-shot messages, another Begin and the end of the whole operation are refused
and change nothing. -/
theorem C43_between (d : List (Nat × Db)) (tr : Trace) (h i : Nat) (k : OpKind) (hk : manyMessages k = true)
    (hs : onSlot M C O (after M C O d tr) h i)
    (hy : message (hist M C O (St.init d) tr) h k = .yes) (e : Env) (a : Act)
    (ha : a = .oneShot ∨ a = .begin ∨ a = .finish) (inp : OpIn) :
    ∃ r, step M C O e (after M C O d tr) (.op h (.opRun k a inp)) = (.err r, after M C O d tr) := by
  have hi : Inv (after M C O d tr) := inv_reach M O d tr
  have hkn : MInv (message (hist M C O (St.init d) tr)) (after M C O d tr) := msg_reach d tr
  generalize after M C O d tr = s at *
  obtain ⟨sl, x, hg, h1, h2⟩ := getSession_live hi ((onSlot_iff hi).1 hs)
  have ag := hkn i sl h x h1 h2
  have : ∃ r, fnMessage M e k a inp x sl.token = (.err r, x) := by
    rcases ha with rfl | rfl | rfl
    · unfold fnMessage
      simp only
      split
      · exact ⟨_, rfl⟩
      split
      · exact ⟨_, rfl⟩
      rename_i op ho
      obtain ⟨g1, g2⟩ := getOp_get ho
      rw [((ag k hk op g1 g2).2 hy)]
      exact ⟨_, rfl⟩
    · unfold fnMessage
      simp only
      split
      · exact ⟨_, rfl⟩
      split
      · exact ⟨_, rfl⟩
      rename_i op ho
      obtain ⟨g1, g2⟩ := getOp_get ho
      rw [((ag k hk op g1 g2).2 hy)]
      exact ⟨_, rfl⟩
    · unfold fnMessage
      simp only
      split
      · exact ⟨_, rfl⟩
      rename_i op ho
      obtain ⟨g1, g2⟩ := getOp_get ho
      rw [((ag k hk op g1 g2).2 hy)]
      exact ⟨_, rfl⟩
  obtain ⟨r, hr⟩ := this
  exact ⟨r, message_still hi hg h1 h2 hk hr⟩

/-! ## Examples -/

/-- Input of a message call, with a buffer of `n` bytes. -/
def exMsg (d : Bytes) (n : Nat) : OpIn := ⟨d, [], [1], [], some n⟩

/-- A key (8) and a message encryption with it in session 1. -/
def exC43 : Trace :=
  exStart ++ [(exEnv 6, .login 1 CKU_USER exPin), (exEnv 7, .sess 1 (.createObject exAesTemplate)),
    (exEnv 8, .op 1 (.opInit .msgEnc (some (CKM_AES_ECB, [])) 8 []))]

def exC43Open : Trace :=
  exC43 ++ [(exEnv 9, .op 1 (.opRun .msgEnc .oneShot (exMsg [1, 2] 20))),
    (exEnv 10, .op 1 (.opRun .msgEnc .begin (exMsg [] 0))),
    (exEnv 11, .op 1 (.opRun .msgEnc .next (exMsg [3] 20)))]

def exC43Closed : Trace := exC43Open ++ [(exEnv 12, .op 1 (.opRun .msgEnc .last (exMsg [4] 20)))]

set_option maxRecDepth 10000 in
example : (exOuts (exC43Closed ++ [(exEnv 13, .op 1 (.opRun .msgEnc .finish (exMsg [] 0)))])).drop 6 =
    [.ok, .handle 8, .ok, .bytes [1, 2], .ok, .bytes [3], .bytes [3, 4], .ok] := by decide +kernel

set_option maxRecDepth 10000 in
/-- The hypotheses of `C43_next_partial` are met before the message and after it. -/
example : onSlot exMechs exCrypto exOracle (after exMechs exCrypto exOracle [] exC43Closed) 1 7 ∧
    message (hist exMechs exCrypto exOracle (St.init []) exC43) 1 .msgEnc = .no ∧
    message (hist exMechs exCrypto exOracle (St.init []) exC43Closed) 1 .msgEnc = .no ∧
    (step exMechs exCrypto exOracle (exEnv 14) (after exMechs exCrypto exOracle [] exC43Closed)
      (.op 1 (.opRun .msgEnc .next (exMsg [3] 20)))).1 = .err .operationNotInitialized :=
  ⟨⟨quietEnv, .rwUser, 6, by decide +kernel⟩, by decide +kernel, by decide +kernel, by decide +kernel⟩

set_option maxRecDepth 10000 in
/-- The hypotheses of `C43_between` are met inside the message. -/
example : onSlot exMechs exCrypto exOracle (after exMechs exCrypto exOracle [] exC43Open) 1 7 ∧
    message (hist exMechs exCrypto exOracle (St.init []) exC43Open) 1 .msgEnc = .yes ∧
    [Act.oneShot, .begin, .finish].map (fun a => (step exMechs exCrypto exOracle (exEnv 14)
      (after exMechs exCrypto exOracle [] exC43Open) (.op 1 (.opRun .msgEnc a (exMsg [3] 20)))).1) =
      [.err .operationActive, .err .operationActive, .err .operationActive] :=
  ⟨⟨quietEnv, .rwUser, 6, by decide +kernel⟩, by decide +kernel, by decide +kernel⟩

/-! ## What does not hold -/

/-- One-shot message encryption as `src/ossl/aes.rs:2020-2030` with `:1025` (`in_use = true`) and `:2076-2079`: the message
is begun, then the output buffer is found to be too small, and `in_use` stays set. -/
def exMechs43 : Mechs := { exMechs with
  run := fun e k a o i => match k, a, i.out with
    | .msgEnc, .oneShot, some n =>
      if n < i.data.length then (.error .bufferTooSmall, { o with busy := true }) else exMechs.run e k a o i
    | _, _, _ => exMechs.run e k a o i }

set_option maxRecDepth 10000 in
/-- **Counterexample**: no message was ever begun, but after a one-shot C_EncryptMessage that failed with
CKR_BUFFER_TOO_SMALL, C_EncryptMessageNext succeeds; the retry of C_EncryptMessage is refused and so is
C_MessageEncryptFinal. -/
theorem C43_violation : ∃ (tr : Trace) (e : Env) (inp : OpIn) (b : Bytes),
    (∀ p ∈ tr, ∀ h k i, p.2 ≠ .op h (.opRun k .begin i)) ∧
    (step exMechs43 exCrypto exOracle e (after exMechs43 exCrypto exOracle [] tr)
      (.op 1 (.opRun .msgEnc .next inp))).1 = .bytes b ∧
    (step exMechs43 exCrypto exOracle e (after exMechs43 exCrypto exOracle [] tr)
      (.op 1 (.opRun .msgEnc .oneShot inp))).1 = .err .operationActive ∧
    (step exMechs43 exCrypto exOracle e (after exMechs43 exCrypto exOracle [] tr)
      (.op 1 (.opRun .msgEnc .finish inp))).1 = .err .operationActive := by
  refine ⟨exC43 ++ [(exEnv 9, .op 1 (.opRun .msgEnc .oneShot (exMsg [1, 2] 1)))], exEnv 10, exMsg [1, 2] 20, [1, 2],
    ?_, by decide +kernel, by decide +kernel, by decide +kernel⟩
  intro p hp h k i
  simp only [exC43, exStart, List.cons_append, List.nil_append, List.mem_cons, List.not_mem_nil, or_false] at hp
  rcases hp with rfl | rfl | rfl | rfl | rfl | rfl | rfl | rfl | rfl | rfl <;> simp

end Kry
