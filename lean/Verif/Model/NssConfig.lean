import Verif.Model.Base

/-!
# The configuration string of the NSS storage back end

`src/storage/nssdb/config.rs`: the parser of the argument string NSS hands to `C_Initialize`.  The
parser works on bytes.  Every slice the code takes is written out, and a slice whose start lies
behind its end is `Rv.panic`, as in Rust.

The conversion `String::from_utf8_lossy(..).to_lowercase()` applied to parameter names and flags is
the parameter `lower` of the model.  A value is cut between ASCII bytes out of a `&str`, so the
lossy conversion applied to values (`:200`) is the identity.
-/

namespace Kry

/-- The bytes of a literal of ASCII characters. -/
def asciiOf (s : String) : Bytes := s.toList.map (fun c => UInt8.ofNat c.toNat)

/-- The string parameters (`src/storage/nssdb/config.rs:210-229`), in the order of the `match`. -/
inductive NssText where
  | configdir | updatedir | updateid | secmod | manufacturerid | librarydescription | certprefix
  | keyprefix | cryptotokendescription | dbtokendescription | fipstokendescription
  | cryptoslotdescription | dbslotdescription | fipsslotdescription | updatetokendescription
deriving DecidableEq, Repr

/-- The flags (`src/storage/nssdb/config.rs:118-126`). -/
inductive NssFlag where
  | readonly | nomoddb | nocertdb | nokeydb | forceopen | passwordrequired | optimizespace
deriving DecidableEq, Repr

/-- What a parameter name stands for: the `match` on `name` in `src/storage/nssdb/config.rs:209-232`. -/
inductive NssKey where
  | text (t : NssText) | minpwlen | flags
deriving DecidableEq, Repr

/-- `NSSConfig` (`src/storage/nssdb/config.rs:22-69`).  The string fields are kept by parameter, with
`none` for a field not set: `Option` fields start as `None` and `secmod`, `cert_prefix`, `key_prefix`
start with the defaults `NssCfg.secmod`, `NssCfg.certPrefix`, `NssCfg.keyPrefix` below return. -/
structure NssCfg where
  texts : List (NssText × Bytes)
  minPinLen : Nat
  flags : List NssFlag
deriving DecidableEq, Repr

/-- `Default for NSSConfig` (`src/storage/nssdb/config.rs:72-101`). -/
def NssCfg.default : NssCfg := ⟨[], 0, []⟩

/-- The field a string parameter sets; `None` when it was not given. -/
def NssCfg.text (c : NssCfg) (t : NssText) : Option Bytes :=
  (c.texts.find? (fun p => p.1 == t)).map (·.2)

/-- `config.secmod`, with its default (`src/storage/nssdb/config.rs:79`). -/
def NssCfg.secmod (c : NssCfg) : Bytes := (c.text .secmod).getD (asciiOf "secmod.db")

/-- `config.cert_prefix`, with its default (`src/storage/nssdb/config.rs:82`). -/
def NssCfg.certPrefix (c : NssCfg) : Bytes := (c.text .certprefix).getD []

/-- `config.key_prefix`, with its default (`src/storage/nssdb/config.rs:83`). -/
def NssCfg.keyPrefix (c : NssCfg) : Bytes := (c.text .keyprefix).getD []

/-- A boolean field of the configuration. -/
def NssCfg.has (c : NssCfg) (f : NssFlag) : Bool := c.flags.contains f

/-- The names of the flags (`src/storage/nssdb/config.rs:119-125`). -/
def nssFlags : List (Bytes × NssFlag) :=
  [(asciiOf "readonly", .readonly), (asciiOf "nomoddb", .nomoddb), (asciiOf "nocertdb", .nocertdb),
   (asciiOf "nokeydb", .nokeydb), (asciiOf "forceopen", .forceopen),
   (asciiOf "passwordrequired", .passwordrequired), (asciiOf "optimizespace", .optimizespace)]

/-- The names of the parameters (`src/storage/nssdb/config.rs:210-231`). -/
def nssKeys : List (Bytes × NssKey) :=
  [(asciiOf "configdir", .text .configdir), (asciiOf "updatedir", .text .updatedir),
   (asciiOf "updateid", .text .updateid), (asciiOf "secmod", .text .secmod),
   (asciiOf "manufacturerid", .text .manufacturerid),
   (asciiOf "librarydescription", .text .librarydescription),
   (asciiOf "certprefix", .text .certprefix), (asciiOf "keyprefix", .text .keyprefix),
   (asciiOf "cryptotokendescription", .text .cryptotokendescription),
   (asciiOf "dbtokendescription", .text .dbtokendescription),
   (asciiOf "fipstokendescription", .text .fipstokendescription),
   (asciiOf "cryptoslotdescription", .text .cryptoslotdescription),
   (asciiOf "dbslotdescription", .text .dbslotdescription),
   (asciiOf "fipsslotdescription", .text .fipsslotdescription),
   (asciiOf "updatetokendescription", .text .updatetokendescription),
   (asciiOf "minpwlen", .minpwlen), (asciiOf "flags", .flags)]

/-- `iter().position(|&x| x == b)` on a slice. -/
def posOf (b : UInt8) : Bytes → Option Nat
  | [] => none
  | x :: xs => if x = b then some 0 else (posOf b xs).map (· + 1)

/-- `&args[i..j]`, a panic when `i > j` or `j > args.len()`. -/
def sliceOf (args : Bytes) (i j : Nat) : Res Bytes :=
  if i ≤ j ∧ j ≤ args.length then .ok ((args.drop i).take (j - i)) else .error .panic

/-- The loop of `parse_flags` (`src/storage/nssdb/config.rs:110-131`).  The position of the comma is
relative to `idx` and is used as an index into `args`, as in the code.  `fuel` bounds the rounds;
running out of it is `panic`, and `C40_result` shows it never happens for that reason. -/
def parseFlagsFrom (lower : Bytes → Bytes) (args : Bytes) : Nat → Nat → NssCfg → Res NssCfg
  | fuel, idx, c =>
    if args.length ≤ idx then .ok c
    else
      match fuel with
      | 0 => .error .panic
      | fuel + 1 =>
        let next := (posOf 44 (args.drop idx)).getD args.length
        match sliceOf args idx next with
        | .error r => .error r
        | .ok piece =>
          match AMap.get nssFlags (lower piece) with
          | none => .error .argumentsBad
          | some f => parseFlagsFrom lower args fuel (next + 1) ⟨c.texts, c.minPinLen, f :: c.flags⟩

/-- `parse_flags` (`src/storage/nssdb/config.rs:110-131`). -/
def parseFlags (lower : Bytes → Bytes) (args : Bytes) (c : NssCfg) : Res NssCfg :=
  parseFlagsFrom lower args args.length 0 c

/-- The leading `+` that `str::parse::<usize>` accepts. -/
def dropPlus (v : Bytes) : Bytes := if v.head? = some 43 then v.drop 1 else v

/-- `str::parse::<usize>`: an optional `+`, then at least one decimal digit, below `2^64`; everything
else is a `ParseIntError`, which `src/error.rs:245-250` turns into `CKR_GENERAL_ERROR`. -/
def parseUsize (v : Bytes) : Res Nat :=
  let d := dropPlus v
  if d = [] then .error .generalError
  else if d.all (fun b => 48 ≤ b && b ≤ 57) then
    let n := d.foldl (fun n b => 10 * n + (b.toNat - 48)) 0
    if n < 2 ^ 64 then .ok n else .error .generalError
  else .error .generalError

/-- The closing delimiter of a value starting with `b` (`src/storage/nssdb/config.rs:156-164`);
`END_VALUE` (`:105`), a blank, when the value is not delimited. -/
def closing (b : UInt8) : UInt8 :=
  if b = 39 then 39 else if b = 34 then 34 else if b = 40 then 41
  else if b = 123 then 125 else if b = 91 then 93 else if b = 60 then 62 else 32

/-- The count of backslashes before the delimiter (`src/storage/nssdb/config.rs:172-179`):
`args[pos - 1 - esc]` with `pos` relative to the start of the search, as in the code. `k` is
`pos - esc`. -/
def escapes (args : Bytes) : Nat → Nat
  | 0 => 0
  | k + 1 => if args[k]? = some 92 then escapes args k + 1 else 0

/-- The search for the end of a value (`src/storage/nssdb/config.rs:168-189`); returns `idx`.  Each
round moves `idx` forward, so `fuel = args.length` rounds are enough. -/
def findEnd (args : Bytes) (find : UInt8) : Nat → Nat → Nat
  | fuel, idx =>
    if args.length ≤ idx then idx
    else
      match fuel with
      | 0 => idx
      | fuel + 1 =>
        match posOf find (args.drop idx) with
        | none => args.length
        | some pos =>
          if escapes args pos % 2 = 1 then findEnd args find fuel (idx + pos + 1) else idx + pos

/-- The assignment at the end of `parse_parameter` (`src/storage/nssdb/config.rs:209-233`). -/
def assign (lower : Bytes → Bytes) (name value : Bytes) (c : NssCfg) : Res NssCfg :=
  match AMap.get nssKeys name with
  | none => .error .argumentsBad
  | some (.text t) => .ok ⟨(t, value) :: c.texts, c.minPinLen, c.flags⟩
  | some .minpwlen =>
    match parseUsize value with
    | .error r => .error r
    | .ok n => .ok ⟨c.texts, n, c.flags⟩
  | some .flags => parseFlags lower value c

/-- `parse_parameter` (`src/storage/nssdb/config.rs:139-236`): the new configuration and the number of
bytes consumed. -/
def parseParameter (lower : Bytes → Bytes) (args : Bytes) (c : NssCfg) : Res (NssCfg × Nat) :=
  match posOf 61 args with
  | none => .error .argumentsBad
  | some eq =>
    if args.length ≤ eq + 2 then .error .argumentsBad
    else
      let name := lower (args.take eq)
      let find := closing (args[eq + 1]?.getD 0)
      let valx := if find ≠ 32 then eq + 2 else eq + 1
      let idx := findEnd args find args.length valx
      if args.length ≤ idx ∧ idx = args.length ∧ find ≠ 32 then .error .argumentsBad
      else
        match sliceOf args valx idx with
        | .error r => .error r
        | .ok value =>
          let used := if idx < args.length then (if find ≠ 32 then idx + 2 else idx + 1) else idx
          match assign lower name value c with
          | .error r => .error r
          | .ok c' => .ok (c', used)

/-- The loop of `from_args` (`src/storage/nssdb/config.rs:239-249`) over what is left of the string.
`idx += ..` followed by `&bargs[idx..]` is dropping the bytes consumed. -/
def fromArgsLoop (lower : Bytes → Bytes) : Nat → Bytes → NssCfg → Res NssCfg
  | fuel, rest, c =>
    if rest = [] then .ok c
    else
      match fuel with
      | 0 => .error .panic
      | fuel + 1 =>
        match parseParameter lower rest c with
        | .error r => .error r
        | .ok (c', used) => fromArgsLoop lower fuel (rest.drop used) c'

/-- `NSSConfig::from_args` (`src/storage/nssdb/config.rs:239-249`). -/
def nssFromArgs (lower : Bytes → Bytes) (args : Bytes) : Res NssCfg :=
  fromArgsLoop lower args.length args .default

end Kry
