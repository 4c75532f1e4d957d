import Verif.Model.NssDb
import Verif.Model.Token

/-! Calls on token objects with an NSS database as the storage (`src/token.rs` over `src/storage/nssdb/mod.rs`).  Session objects, which do not touch the
storage, are left out: they are in Model/Token. -/

namespace Kry

variable (N : NssLib)

/-- `get_object_attrs` (`src/token.rs:781-812`) up to the filling of the template, for an object that is not a session object; `logged` is the answer of
`is_logged_in`.  The two types are added with a value of one byte. -/
def Nss.objectForAttrs (e : Env) (s : Nss) (h : Handles) (logged : Bool) (handle : Nat) (tm : Template) : Res Obj × Nss :=
  match s.fetch N e h handle (tm ++ if logged then [] else [CkAttr.ofBool CKA_TOKEN false, CkAttr.ofBool CKA_PRIVATE false]) with
  | (.error r, s) => (.error r, s)
  | (.ok o, s) => if !logged && o.isToken && o.isPrivate then (.error .objectHandleInvalid, s) else (.ok o, s)

/-- `destroy_object` (`src/token.rs:745-771`) for an object that is not a session object: the answer of `remove` is ignored. -/
def Nss.destroyObject (e : Env) (s : Nss) (h : Handles) (handle : Nat) : Res Unit × Nss × Handles :=
  match s.fetch N e h handle [⟨CKA_DESTROYABLE, .null 0⟩] with
  | (.error r, s) => (.error r, s, h)
  | (.ok o, s) =>
    if !o.isDestroyable then (.error .actionProhibited, s, h)
    else
      let _ := Nss.remove
      (.ok (), s, h.remove handle)

/-- `set_object_attrs` (`src/token.rs:820-858`) for an object that is not a session object; `logged` is the answer of `is_logged_in`. -/
def Nss.setObjectAttrs (e : Env) (s : Nss) (h : Handles) (logged : Bool) (handle : Nat) (tm : Template) : Res Unit × Nss :=
  if !logged then (.error .userNotLoggedIn, s)
  else match s.fetch N (e.sub 0) h handle [CkAttr.ofUlong CKA_CLASS CK_UNAVAILABLE_INFORMATION, CkAttr.ofUlong CKA_KEY_TYPE CK_UNAVAILABLE_INFORMATION,
      CkAttr.ofBool CKA_MODIFIABLE false] with
    | (.error r, s) => (.error r, s)
    | (.ok o, s) => match objFactory o with
      | .error r => (.error r, s)
      | .ok F =>
        if !o.isModifiable then (.error .actionProhibited, s)
        else match checkSetAttributes F.attrs tm with
          | .error r => (.error r, s)
          | .ok () => s.update N (e.sub 1) h handle tm

/-- `search_objects` (`src/token.rs:909-938`) without session objects. -/
def Nss.searchObjects (e : Env) (s : Nss) (h : Handles) (logged : Bool) (tm : Template) : Res (List Nat) × Handles :=
  s.search e h (if logged then tm else tm ++ [CkAttr.ofBool CKA_PRIVATE false])

end Kry
