import Verif.Model.State
import Verif.Model.NameLookup

/-!
# Configuration of the slots, and the calls that list slots and mechanisms

`src/config.rs`, `src/mechanism.rs:217-268`, `src/slot.rs:35-92`, `src/fns/general.rs:19-80`, `src/fns/stmgmt.rs:17-170`.  Reading and
parsing the TOML file is not modelled: what a file holds is a parameter.
-/

namespace Kry

/-- The special slot number (`src/config.rs:128`). -/
abbrev noSlot : Nat := 2 ^ 32 - 1

/-- `config::Slot` (`src/config.rs:97-123`). -/
structure CSlot where
  slot : Nat
  desc : Option Bytes
  manu : Option Bytes
  dbtype : Option Bytes
  dbargs : Option Bytes
  mechs : Option (List String)
  dedup : Option Dedup
deriving DecidableEq, Repr

/-- The loop of `mech_list` past the first entry (`src/config.rs:183-206`). -/
def mechCodes : List String → Res (List Nat)
  | [] => .ok []
  | n :: rest => match nameLookup mechNames n with
    | .error r => .error r
    | .ok m => match mechCodes rest with
      | .error r => .error r
      | .ok l => .ok (m :: l)

/-- `mech_list` (`src/config.rs:176-209`): the list and whether it is a deny list. -/
def CSlot.mechList (c : CSlot) : Res (Option (Bool × List Nat)) :=
  match c.mechs with
  | none => .ok none
  | some [] => .ok (some (false, []))
  | some (n :: rest) =>
    if n = "DENY" then match mechCodes rest with
      | .error r => .error r
      | .ok l => .ok (some (true, l))
    else match mechCodes (n :: rest) with
      | .error r => .error r
      | .ok l => .ok (some (false, l))

/-- `BTreeMap::insert` of a key (`src/mechanism.rs:243-249`): the keys are kept in order, an equal one is replaced. -/
def btreeInsert (k : Nat) : List Nat → List Nat
  | [] => [k]
  | a :: l => if k < a then k :: a :: l else if k = a then a :: l else a :: btreeInsert k l

/-- The mechanism register after `add_mechanism` for each of a list (`src/enabled.rs`). -/
def registered (l : List Nat) : List Nat := l.foldl (fun r k => btreeInsert k r) []

/-- What `Slot::new` gives the token (`src/slot.rs:51-62`), `reg` being the registered mechanisms. -/
def CSlot.tokCfg (reg : List Nat) (c : CSlot) : Res TokCfg :=
  match c.mechList with
  | .error r => .error r
  | .ok f => .ok ⟨reg, f, c.dedup⟩

/-- The texts of `CK_SLOT_INFO` (`src/slot.rs:64-89`): description and manufacturer. -/
def CSlot.texts (c : CSlot) : Bytes × Bytes :=
  (copySized (match c.desc with
    | some d => d
    | none => ascii "Kryoptic Slot") (List.replicate 64 0),
   copySized (match c.manu with
    | some d => d
    | none => ascii "Kryoptic Project") (List.replicate 32 0))

/-! ## Slot numbers -/

/-- The first loop of `fix_slot_numbers` (`src/config.rs:387-396`): one more than the highest number. -/
def nextSlot : Nat → List CSlot → Nat
  | n, [] => n
  | n, c :: l => nextSlot (if c.slot ≠ noSlot then (if n ≤ c.slot then c.slot + 1 else n) else n) l

/-- The second loop (`src/config.rs:397-404`).  `slotnum += 1` on the highest u32 panics (it wraps in a build without overflow
checks). -/
def fillSlots : Nat → List CSlot → Res (List CSlot)
  | _, [] => .ok []
  | n, c :: l =>
    if c.slot = noSlot then
      if n = 2 ^ 32 - 1 then .error .panic
      else match fillSlots (n + 1) l with
        | .error r => .error r
        | .ok l => .ok ({ c with slot := n } :: l)
    else match fillSlots n l with
      | .error r => .error r
      | .ok l => .ok (c :: l)

/-- `fix_slot_numbers` (`src/config.rs:379-405`). -/
def fixSlotNumbers (l : List CSlot) : Res (List CSlot) := fillSlots (nextSlot 0 l) l

/-- The inner loop of `from_init_args` (`src/config.rs:504-532`): the new slot is compared with each slot `s` known; the answer is
the slot (it may get a number) and whether it was found. -/
def matchSlots : CSlot → Bool → List CSlot → Res (CSlot × Bool)
  | c, found, [] => .ok (c, found)
  | c, found, s :: l =>
    if c.slot = noSlot then
      if s.dbtype = c.dbtype ∧ s.dbargs = c.dbargs then matchSlots { c with slot := s.slot } true l
      else matchSlots c found l
    else if c.slot ≠ s.slot then
      if s.dbtype = c.dbtype ∧ s.dbargs = c.dbargs then .error .argumentsBad
      else matchSlots c found l
    else if s.dbtype ≠ c.dbtype then .error .argumentsBad
    else if s.dbargs ≠ c.dbargs then .error .argumentsBad
    else matchSlots c true l

/-- The outer loop (`src/config.rs:501-536`).  An error leaves the slots added so far. -/
def addSlots : List CSlot → List CSlot → Res Unit × List CSlot
  | self, [] => (.ok (), self)
  | self, c :: l => match matchSlots c false self with
    | .error r => (.error r, self)
    | .ok (c, found) => addSlots (if found then self else self ++ [c]) l

/-- `from_init_args` (`src/config.rs:497-539`) on the slots that `conf_from_args` gives for the argument. -/
def fromInitArgs (self : List CSlot) (conf : Res (List CSlot)) : Res Unit × List CSlot :=
  match conf with
  | .error r => (.error r, self)
  | .ok l =>
    let (r, self) := addSlots self l
    match r with
    | .error r => (.error r, self)
    | .ok () => match fixSlotNumbers self with
      | .error r => (.error r, self)
      | .ok self => (.ok (), self)

/-- `from_legacy_conf_string` and `from_nss_init_args` (`src/config.rs:358-374`, `:455-476`): one slot without a number. -/
def CSlot.unnumbered (dbtype args : Bytes) (dedup : Option Dedup) : CSlot :=
  ⟨noSlot, none, none, some dbtype, some args, none, dedup⟩

/-- The configuration part of C_Initialize (`src/fns/general.rs:19-45`): `args` is what the reserved argument stands for, if it
is given; `dflt` what the default configuration file does. -/
def loadConfig (conf : List CSlot) (args : Option (Res (List CSlot))) (dflt : Res (List CSlot)) : Res Unit × List CSlot :=
  let (r, conf) : Res Unit × List CSlot := match args with
    | none => (.ok (), conf)
    | some a => fromInitArgs conf a
  match r with
  | .error r => (.error r, conf)
  | .ok () =>
    if conf = [] then match dflt with
      | .ok l => (.ok (), l)
      | .error _ => (.error .tokenNotPresent, conf)
    else (.ok (), conf)

/-! ## Listing calls -/

/-- The two memory areas of a listing call: the list (`None` = NULL), and the count. -/
structure ListBuf where
  list : Option (List Nat)
  count : Nat
deriving DecidableEq, Repr

/-- `ptr::write` of the entries from index `i` on (`src/fns/stmgmt.rs:42-47`, `:160-165`); outside of the memory it is undefined
behaviour (`panic`). -/
def writeAt (mem : List Nat) : Nat → List Nat → Res (List Nat)
  | _, [] => .ok mem
  | i, x :: l => if i < mem.length then writeAt (mem.set i x) (i + 1) l else .error .panic

/-- The common part of `get_slot_list` and `get_mechanism_list` (`src/fns/stmgmt.rs:27-52`, `:147-170`). -/
def answerList (l : List Nat) (b : ListBuf) : Res Unit × ListBuf :=
  match b.list with
  | none => (.ok (), { b with count := l.length })
  | some mem =>
    if b.count < l.length then (.error .bufferTooSmall, b)
    else match writeAt mem 0 l with
      | .error r => (.error r, b)
      | .ok mem => (.ok (), ⟨some mem, l.length⟩)

/-- Insertion into an ordered list. -/
def insertLe (k : Nat) : List Nat → List Nat
  | [] => [k]
  | a :: l => if k ≤ a then k :: a :: l else a :: insertLe k l

/-- `sort_unstable` (`src/lib.rs:166`). -/
def sortNat (l : List Nat) : List Nat := l.foldr insertLe []

/-- `get_slots_ids` (`src/lib.rs:161-168`). -/
def St.slotIds (s : St) : List Nat := sortNat (AMap.keys s.slots)

/-- `get_slot_list` (`src/fns/stmgmt.rs:17-53`). -/
def fnSlotList (s : St) (b : ListBuf) : Res Unit × ListBuf :=
  if !s.ready then (.error .cryptokiNotInitialized, b) else answerList s.slotIds b

/-- `get_mechanism_list` (`src/fns/stmgmt.rs:139-171`). -/
def fnMechList (s : St) (i : Nat) (b : ListBuf) : Res Unit × ListBuf :=
  match s.getSlot i with
  | .error r => (.error r, b)
  | .ok sl =>
    if !sl.token.isInitialized then (.error .tokenNotInitialized, b)
    else answerList sl.token.mechsList b

/-- `get_mechanism_info` (`src/fns/stmgmt.rs:200-216`, `src/token.rs:511-520`): the flags of the mechanism. -/
def fnMechInfo (M : Mechs) (s : St) (i m : Nat) : Res Nat :=
  match s.getSlot i with
  | .error r => .error r
  | .ok sl =>
    if !sl.token.isInitialized then .error .tokenNotInitialized
    else if sl.token.mechsList.contains m then .ok (M.flags m) else .error .mechanismInvalid

end Kry
