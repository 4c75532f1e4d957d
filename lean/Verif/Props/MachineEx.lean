import Verif.Model.State
import Verif.Props.Examples

/-!
# Concrete cryptography, mechanisms and traces

An instance of every parameter of the machine, so that the hypotheses of the theorems are met by
something and whole histories can be evaluated by the kernel.  The "cryptography" here is a transparent
encoding that satisfies the laws of `Crypto`.
-/

namespace Kry

/-- Self-delimiting code of a byte string. -/
def pack (b : Bytes) : Bytes := b.flatMap (fun x => [1, x]) ++ [0]

/-- Read one code and the rest. -/
def unpack : Bytes → Option (Bytes × Bytes)
  | 0 :: r => some ([], r)
  | 1 :: x :: r => match unpack r with
    | none => none
    | some (b, r) => some (x :: b, r)
  | _ => none

theorem unpack_pack (b r : Bytes) : unpack (pack b ++ r) = some (b, r) := by
  induction b with
  | nil => rfl
  | cons x b ih =>
    show unpack (1 :: x :: (pack b ++ r)) = _
    rw [unpack, ih]

theorem pack_unpack {l b r : Bytes} (h : unpack l = some (b, r)) : l = pack b ++ r := by
  induction l using unpack.induct generalizing b r with
  | case1 r' => rw [unpack] at h; injection h with h; injection h with h1 h2; subst h1; subst h2; rfl
  | case2 x r' hn => rw [unpack, hn] at h; cases h
  | case3 x r' b' r'' hs ih =>
    rw [unpack, hs] at h
    injection h with h; injection h with h1 h2; subst h1; subst h2
    rw [ih hs]; rfl
  | case4 l h1 h2 => rw [unpack] at h; cases h; all_goals assumption

/-- Code of a number. -/
def natCode (n : Nat) : Bytes := if n < 2 ^ 64 then 0 :: toLE 8 n else 1 :: List.replicate n 0

def natDecode : Bytes → Nat
  | 0 :: l => fromLE l
  | _ :: l => l.length
  | [] => 0

theorem fromLE_toLE' (k n : Nat) : fromLE (toLE k n) = n % 256 ^ k := by
  induction k generalizing n with
  | zero => simp [toLE, fromLE, Nat.mod_one]
  | succ k ih =>
    rw [toLE, fromLE, ih]
    have h : (UInt8.ofNat (n % 256)).toNat = n % 256 := by
      simp
    rw [h, Nat.pow_succ, Nat.mul_comm (256 ^ k) 256, Nat.mod_mul]

theorem natDecode_code (n : Nat) : natDecode (natCode n) = n := by
  unfold natCode
  split
  · rename_i h
    show fromLE (toLE 8 n) = n
    rw [fromLE_toLE']
    have e : (256 : Nat) ^ 8 = 2 ^ 64 := by decide
    rw [e, Nat.mod_eq_of_lt h]
  · show (List.replicate n (0 : UInt8)).length = n
    simp

def exDerP (d : PData) : Bytes :=
  pack (natCode d.version) ++ (match d.kdf with
    | .pbkdf2 s i => 0 :: (pack s ++ pack (natCode i))
    | .kkdf1 s => 1 :: pack s) ++ pack d.iv ++ pack d.tag ++ pack d.data

def exParseTail (v : Nat) (k : Kdf) (l : Bytes) : Option PData :=
  match unpack l with
  | none => none
  | some (iv, l) => match unpack l with
    | none => none
    | some (tag, l) => match unpack l with
      | none => none
      | some (data, _) => some ⟨v, k, iv, tag, data⟩

def exParse (l : Bytes) : Option PData :=
  match unpack l with
  | none => none
  | some (v, l) => match l with
    | 0 :: l => match unpack l with
      | none => none
      | some (s, l) => match unpack l with
        | none => none
        | some (i, l) => exParseTail (natDecode v) (.pbkdf2 s (natDecode i)) l
    | 1 :: l => match unpack l with
      | none => none
      | some (s, l) => exParseTail (natDecode v) (.kkdf1 s) l
    | _ => none

theorem exParse_derP (d : PData) : exParse (exDerP d) = some d := by
  obtain ⟨v, k, iv, tag, data⟩ := d
  have tail : ∀ v k, exParseTail v k (pack iv ++ (pack tag ++ pack data)) = some ⟨v, k, iv, tag, data⟩ := by
    intro v k
    unfold exParseTail
    have e := unpack_pack data []
    rw [List.append_nil] at e
    simp only [unpack_pack, e]
  cases k with
  | pbkdf2 s i =>
    unfold exDerP exParse
    simp only [List.append_assoc, List.cons_append, unpack_pack, natDecode_code, tail]
  | kkdf1 s =>
    unfold exDerP exParse
    simp only [List.append_assoc, List.cons_append, unpack_pack, natDecode_code, tail]

def exSeal (k iv aad p : Bytes) : Bytes := pack k ++ (pack iv ++ (pack aad ++ pack p))

def exDec (k iv aad : Bytes) (c : Bytes × Bytes) : Option Bytes :=
  match unpack c.1 with
  | none => none
  | some (k', l) => match unpack l with
    | none => none
    | some (iv', l) => match unpack l with
      | none => none
      | some (aad', l) => match unpack l with
        | none => none
        | some (p, r) => if k' = k ∧ iv' = iv ∧ aad' = aad ∧ r = [] ∧ c.2 = [] then some p else none

theorem exDec_seal (k iv aad p : Bytes) : exDec k iv aad (exSeal k iv aad p, []) = some p := by
  unfold exDec exSeal
  have e := unpack_pack p []
  rw [List.append_nil] at e
  simp [unpack_pack, e]

theorem exSeal_dec (k iv aad : Bytes) (c : Bytes × Bytes) (p : Bytes) (h : exDec k iv aad c = some p) :
    (exSeal k iv aad p, ([] : Bytes)) = c := by
  unfold exDec at h
  repeat' split at h
  all_goals first | (cases h; done) | skip
  rename_i k' l1 h1 _ _ l2 h2 _ _ l3 h3 _ _ l4 h4 hc
  injection h with h; subst h
  obtain ⟨rfl, rfl, rfl, rfl, h5⟩ := hc
  have e1 := pack_unpack h1
  have e2 := pack_unpack h2
  have e3 := pack_unpack h3
  have e4 := pack_unpack h4
  rw [List.append_nil] at e4
  unfold exSeal
  rw [← e4, ← e3, ← e2, ← e1, ← h5]

theorem exSeal_inj {k iv aad p k' iv' aad' p' : Bytes}
    (h : (exSeal k iv aad p, ([] : Bytes)) = (exSeal k' iv' aad' p', [])) :
    k = k' ∧ aad = aad' ∧ p = p' := by
  injection h with h _
  have a := unpack_pack k (pack iv ++ (pack aad ++ pack p))
  have b := unpack_pack k' (pack iv' ++ (pack aad' ++ pack p'))
  unfold exSeal at h
  rw [h, b] at a
  injection a with a; injection a with a1 a2
  have c := unpack_pack iv (pack aad ++ pack p)
  rw [← a2, unpack_pack] at c
  injection c with c; injection c with c1 c2
  have d := unpack_pack aad (pack p)
  rw [← c2, unpack_pack] at d
  injection d with d; injection d with d1 d2
  have e := unpack_pack p []
  have f := unpack_pack p' []
  rw [List.append_nil] at e f
  rw [← d2, f] at e
  injection e with e; injection e with e1 e2
  exact ⟨a1.symm, d1.symm, e1.symm⟩

theorem exDek_inj {m i m' i' : Bytes} (h : pack m ++ i = pack m' ++ i') : m = m' ∧ i = i' := by
  have a := unpack_pack m i
  rw [h, unpack_pack] at a
  injection a with a; injection a with a1 a2
  exact ⟨a1.symm, a2.symm⟩

/-- Transparent cryptography that satisfies the laws. -/
def exCrypto : Crypto where
  sha := fun _ => List.replicate 32 9
  kek0 := fun k _ _ => k
  dek := fun m i => pack m ++ i
  enc := fun k iv aad p => (exSeal k iv aad p, [])
  dec := exDec
  der := exDerP
  parse := exParse
  dec_enc := exDec_seal
  enc_of_dec := exSeal_dec
  enc_inj := fun _ _ _ _ _ _ _ _ h => exSeal_inj h
  kek0_inj := fun _ _ _ _ _ _ h => h
  dek_inj := fun _ _ _ _ h => exDek_inj h
  parse_der := exParse_derP

/-- Mechanisms that echo: every operation answers its input, finals end the operation (operations on
messages are ended by their own final call). -/
def exMechs : Mechs where
  flags := fun _ => 0xFFFFFFFF
  fam := fun m => if m = CKM_SHA256 then .digest else if m = CKM_AES_ECB then .aes
    else if m = CKM_ECDSA then .ecdsa else .other
  new := fun _ _ _ _ _ _ => .ok ⟨0, false, false, none, []⟩
  len := fun _ _ o n => (.ok (o.data.length + n), o)
  run := fun _ k a o i => match k, a with
    | _, .update | _, .next => (.ok i.data, { o with data := o.data ++ i.data, upd := none })
    | .msgEnc, _ | .msgDec, _ => (.ok (o.data ++ i.data), { o with upd := none })
    | _, _ => (.ok (o.data ++ i.data), { o with fin := true, upd := none })
  genKey := fun e m _ tm => generateAes (fun n => .ok (e.rnd n)) e.uid m tm
  genPair := fun _ _ _ _ _ => .error .mechanismInvalid
  exportPriv := fun o => o.getBytes CKA_VALUE
  importAttrs := fun _ _ b => .ok [Attr.ofBytes CKA_VALUE b]
  wrapLen := fun _ _ _ d => .ok d.length
  wrap := fun _ _ _ _ d => .ok d
  unwrap := fun _ _ _ _ d => .ok d
  deriveHandles := fun _ _ => .ok []
  derive := fun _ _ _ _ _ _ => .error .mechanismInvalid
  adkCount := fun _ _ => .ok 0
  hkdf := fun _ => .error .mechanismParamInvalid
  encapLen := fun _ => .ok 1
  encapsulate := fun _ _ => .ok ([1], [1])
  decapsulate := fun _ _ b => .ok b

/-- A call whose environment never fails; `n` makes its random bytes and ids differ from others. -/
def exEnv (n : Nat) : Env :=
  ⟨fun _ => none, fun p => (n :: p).map UInt8.ofNat, fun p => 97 :: (n :: p).map fun k => UInt8.ofNat (97 + k)⟩

/-- The same, but the operations on the given path and below fail. -/
def exFail (n : Nat) (path : List Nat) : Env :=
  { exEnv n with fault := fun p => if path.isPrefixOf p then some .deviceError else none }

/-- One slot, numbered 7, with two mechanisms. -/
def exConf : List (Nat × TokCfg) := [(7, ⟨[CKM_SHA256, CKM_AES_ECB], none, none⟩)]

def exRun (tr : Trace) : St := run exMechs exCrypto exOracle (St.init []) tr
def exOuts (tr : Trace) : List Out := outs exMechs exCrypto exOracle (St.init []) tr

def exSoPin : Bytes := [83, 79]
def exPin : Bytes := [49, 50]

/-- C_Initialize, C_InitToken, an R/W session (handle 1), SO login, C_InitPIN, logout. -/
def exStart : Trace :=
  [(exEnv 0, .initialize exConf), (exEnv 1, .initToken 7 exSoPin none),
   (exEnv 2, .openSession 7 (CKF_RW_SESSION ||| CKF_SERIAL_SESSION)),
   (exEnv 3, .login 1 CKU_SO exSoPin), (exEnv 4, .sess 1 (.initPin exPin)), (exEnv 5, .logout 1)]

set_option maxRecDepth 10000 in
example : exOuts exStart = [.ok, .ok, .handle 1, .ok, .ok, .ok] := by decide +kernel

end Kry
