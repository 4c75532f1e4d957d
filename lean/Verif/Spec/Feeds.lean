import Verif.Model.Ops
import Verif.Model.State

/-!
# What an operation of a session was given, told from the calls and their answers
-/

namespace Kry.Spec

/-- A call of the operation itself: a successful update adds a part; a length query or a buffer that is too short changes nothing; after any
other answer nothing is claimed. -/
def feedRun (a : Act) (i : OpIn) (r : Out) (w : Option (List Bytes)) : Option (List Bytes) :=
  match r with
  | .size _ => w
  | .err .bufferTooSmall => w
  | .ok => if a = .update then w.map (· ++ [i.data]) else none
  | _ => none

/-- A dual call that encrypts: the plaintext is the input. -/
def feedIn (i : OpIn) (r : Out) (w : Option (List Bytes)) : Option (List Bytes) :=
  match r with
  | .size _ => w
  | .bytes _ => w.map (· ++ [i.data])
  | _ => none

/-- A dual call that decrypts: the plaintext is the output. -/
def feedOut (r : Out) (w : Option (List Bytes)) : Option (List Bytes) :=
  match r with
  | .size _ => w
  | .bytes b => w.map (· ++ [b])
  | _ => none

/-- The parts given to the operation `k` of a session, after one more call on that session; `none`: nothing is claimed. -/
def feedOp (k : OpKind) (w : Option (List Bytes)) (c : OCall) (r : Out) : Option (List Bytes) :=
  match c with
  | .opInit k' none _ _ => if k' = k then none else w
  | .opInit k' (some _) _ _ => if k' = k then (match r with | .err _ => w | _ => none) else w
  | .opRun k' a i => if k' = k then feedRun a i r w else w
  | .digestKey _ => if k = .digest then none else w
  | .digestEncrypt i => if k = .digest then feedIn i r w else if k = .enc then none else w
  | .decryptDigest _ => if k = .digest then feedOut r w else if k = .dec then none else w
  | .signEncrypt i => if k = .sign then feedIn i r w else if k = .enc then none else w
  | .decryptVerify _ => if k = .verify then feedOut r w else if k = .dec then none else w
  | .cancel f => if f &&& opFlag k = 0 then w else none
  | _ => w

/-- The parts given to the operation `k` of session `h`; calls on other sessions and for other operations change nothing. -/
def feeds (h : Nat) (k : OpKind) (w : Option (List Bytes)) (p : Call × Out) : Option (List Bytes) :=
  match p with
  | (.op h' c, r) => if h' = h then feedOp k w c r else w
  | (.openSession _ _, .handle n) => if n = h then none else w
  | _ => w

/-- Over a history, starting with nothing given. -/
def fedIn (h : Nat) (k : OpKind) (l : List (Call × Out)) : Option (List Bytes) := l.foldl (feeds h k) (some [])

end Kry.Spec
