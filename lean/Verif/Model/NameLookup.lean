import Verif.Model.Names

/-! # Name lookups of `src/pkcs11/mod.rs` -/

namespace Kry

/-- `name_to_mech`, `name_to_attr`, `name_to_obj` (`src/pkcs11/mod.rs:815-840`): linear search by name
in the given table. -/
def nameLookup (tab : List (Nat × String)) (name : String) : Res Nat :=
  match tab.find? (fun e => e.2 == name) with
  | some e => .ok e.1
  | none => .error .argumentsBad

end Kry
