import Verif.Model.State

/-!
# Return codes the lookups never give

CKR_OPERATION_ACTIVE and CKR_OPERATION_NOT_INITIALIZED do not come out of reading an object, unless storage itself
fails with them.
-/

namespace Kry

variable {M : Mechs} {C : Crypto} {O : Oracle}

/-- The two codes. -/
def OpCode (r : Rv) : Prop := r = .operationActive ∨ r = .operationNotInitialized

/-- Not one of the two codes. -/
def Apart {α : Type} (x : Res α) : Prop := ∀ r, x = .error r → ¬ OpCode r

/-- Storage never fails with one of the two codes. -/
def EnvApart (e : Env) : Prop := ∀ p r, e.fault p = some r → ¬ OpCode r

theorem EnvApart.sub {e : Env} (h : EnvApart e) (i : Nat) : EnvApart (e.sub i) := fun p r hr => h _ r hr

theorem EnvApart.fails {e : Env} (h : EnvApart e) {r : Rv} (hr : e.fails = some r) : ¬ OpCode r := h _ r hr

theorem apart_ok {α : Type} (a : α) : Apart (.ok a : Res α) := nofun

theorem apart_err {α : Type} {r : Rv} (h : ¬ OpCode r) : Apart (.error r : Res α) := by
  intro r' h'; injection h' with h'; subst h'; exact h

/-- Closes goals `Apart (.error c)` for a code that is not one of the two. -/
macro "apart_s" : tactic => `(tactic|
  first
    | exact apart_ok _
    | (refine apart_err ?_; rintro (h | h) <;> (cases h; done)))

theorem toUlong_apart (a : Attr) : Apart a.toUlong := by
  unfold Attr.toUlong; repeat' split
  all_goals apart_s

theorem toBool_apart (a : Attr) : Apart a.toBool := by
  unfold Attr.toBool; repeat' split
  all_goals apart_s

theorem toBytes_apart (a : Attr) : Apart a.toBytes := by
  unfold Attr.toBytes; repeat' split
  all_goals apart_s

theorem getUlong_apart (o : Obj) (t : Nat) : Apart (o.getUlong t) := by
  unfold Obj.getUlong; split
  · apart_s
  · exact toUlong_apart _

theorem getBool_apart (o : Obj) (t : Nat) : Apart (o.getBool t) := by
  unfold Obj.getBool; split
  · apart_s
  · exact toBool_apart _

theorem getBytes_apart (o : Obj) (t : Nat) : Apart (o.getBytes t) := by
  unfold Obj.getBytes; split
  · apart_s
  · exact toBytes_apart _

theorem Apart.map {α β : Type} {x : Res α} (hx : Apart x) {r : Rv} (h : x = .error r) :
    Apart (.error r : Res β) := apart_err (hx r h)

theorem setAttr_apart (o : Obj) (a : Attr) : Apart (o.setAttr a) := by
  unfold Obj.setAttr; split
  · split
    · rename_i h; exact (toUlong_apart _).map h
    · apart_s
  · apart_s

theorem vecToDate_apart (b : Bytes) : Apart (vecToDate b) := by
  unfold vecToDate; repeat' split
  all_goals apart_s

theorem decodeRow_apart (t : Nat) (v : DbVal) : Apart (decodeRow t v) := by
  unfold decodeRow; repeat' split
  all_goals first
    | apart_s
    | (rename_i h
       refine Apart.map ?_ h
       unfold valToUlong; repeat' split
       all_goals apart_s)
    | (rename_i h
       refine Apart.map ?_ h
       unfold stringToDate; repeat' split
       all_goals first | apart_s | exact vecToDate_apart _)

theorem decodeRows_apart (l : List (Nat × DbVal)) (o : Obj) : Apart (decodeRows o l) := by
  induction l generalizing o with
  | nil => exact apart_ok _
  | cons p l ih =>
    obtain ⟨t, v⟩ := p
    unfold decodeRows
    split
    · rename_i h; exact (decodeRow_apart _ _).map h
    · split
      · rename_i h; exact (setAttr_apart _ _).map h
      · exact ih _

theorem rowsToObjects_apart (l : ObjTable) : Apart (rowsToObjects l) := by
  induction l with
  | nil => exact apart_ok _
  | cons g l ih =>
    unfold rowsToObjects
    split
    · rename_i h; exact (decodeRows_apart _ _).map h
    · split
      · apart_s
      · split
        · rename_i h; exact ih.map h
        · apart_s

theorem fetchByUid_apart {e : Env} (he : EnvApart e) (db : Db) (uid : Bytes) (hints : List Nat) :
    Apart (db.fetchByUid e uid hints) := by
  unfold Db.fetchByUid
  split
  · apart_s
  · split
    · rename_i h; exact apart_err (he.fails h)
    · simp only
      split
      · rename_i h; exact (rowsToObjects_apart _).map h
      · apart_s
      · apart_s

theorem objFactory_apart (o : Obj) : Apart (objFactory o) := by
  unfold objFactory
  split
  · rename_i h; exact (getUlong_apart _ _).map h
  · simp only
    split
    · rename_i h
      refine Apart.map ?_ h
      split
      · exact getUlong_apart _ _
      · split
        · exact getUlong_apart _ _
        · apart_s
    · unfold getFactory
      split <;> apart_s

theorem decryptLoop_apart {e : Env} (he : EnvApart e) (a : Aci) (uid : Bytes) (ts : List Nat) (n : Nat) (o : Obj) :
    Apart (decryptLoop C e a uid ts n o) := by
  induction ts generalizing n o with
  | nil => exact apart_ok _
  | cons t ts ih =>
    unfold decryptLoop
    split
    · exact ih _ _
    · split
      · rename_i h
        refine Apart.map ?_ h
        unfold Aci.decryptValue
        split
        · unfold decryptData
          repeat' split
          all_goals first
            | apart_s
            | (rename_i h; exact apart_err ((he.sub n).fails h))
        · apart_s
      · split
        · rename_i h; exact (setAttr_apart _ _).map h
        · exact ih _ _

theorem fetch_apart {e : Env} (he : EnvApart e) (s : Store) (hs : Handles) (n : Nat) (q : List Nat) :
    Apart (s.fetch C e hs n q) := by
  unfold Store.fetch
  split
  · apart_s
  · split
    · rename_i h; exact (fetchByUid_apart (he.sub 0) _ _ _).map h
    · split
      · rename_i h; exact (objFactory_apart _).map h
      · simp only
        split
        · rename_i h
          refine Apart.map ?_ h
          split
          · exact decryptLoop_apart (he.sub 1) _ _ _ _ _
          · apart_s
        · apart_s

theorem byHandle_apart {e : Env} (he : EnvApart e) (t : Token) (n : Nat) : Apart (t.getObjectByHandle C e n) := by
  unfold Token.getObjectByHandle
  simp only
  split
  · rename_i h
    refine Apart.map ?_ h
    split
    · apart_s
    · exact fetch_apart he _ _ _ _
  · split <;> apart_s

theorem checkKeyOps_apart (o : Obj) (c k u : Nat) : Apart (o.checkKeyOps c k u) := by
  unfold Obj.checkKeyOps
  split
  · rename_i h; exact (getUlong_apart _ _).map h
  · split
    · apart_s
    · simp only
      split
      · rename_i h
        refine Apart.map ?_ h
        split
        · split
          · rename_i h; exact (getUlong_apart _ _).map h
          · split <;> apart_s
        · apart_s
      · repeat' split
        all_goals first
          | apart_s
          | (rename_i h; exact (getBool_apart _ _).map h)

theorem pairCheck_apart (kt : Nat) (k : OpKind) (o : Obj) : Apart (pairCheck kt k o) := by
  unfold pairCheck
  cases k <;> first | exact checkKeyOps_apart _ _ _ _ | apart_s

theorem hmacCheck_apart (o : Obj) (kt u : Nat) : Apart (hmacCheck o kt u) := by
  unfold hmacCheck
  simp only
  repeat' split
  all_goals first
    | apart_s
    | (rename_i h; exact (getBytes_apart _ _).map h)

theorem hotpCheck_apart (o : Obj) (u : Nat) : Apart (hotpCheck o u) := by
  unfold hotpCheck
  split
  · rename_i h; exact (getUlong_apart _ _).map h
  · split
    · rename_i h; exact (getUlong_apart _ _).map h
    · repeat' split
      all_goals apart_s

theorem famCheck_apart (f : Fam) (k : OpKind) (o : Obj) : Apart (famCheck f k o) := by
  unfold famCheck
  cases f <;> simp only
  case aes => cases k <;> first | exact checkKeyOps_apart _ _ _ _ | apart_s
  case rsa => cases k <;> first | exact checkKeyOps_apart _ _ _ _ | exact pairCheck_apart _ _ _
  case ecdsa => exact pairCheck_apart _ _ _
  case eddsa => exact pairCheck_apart _ _ _
  case mldsa => exact pairCheck_apart _ _ _
  case slhdsa => exact pairCheck_apart _ _ _
  case hmac => cases k <;> first | exact hmacCheck_apart _ _ _ | apart_s
  case tlsMac => cases k <;> first | exact hmacCheck_apart _ _ _ | apart_s
  case hotp =>
    cases k
    case sign | verify => exact hotpCheck_apart _ _
    all_goals apart_s
  case digest => apart_s
  case other => apart_s

theorem checkAllowed_apart (m : Nat) (o : Obj) : Apart (checkAllowed m o) := by
  unfold checkAllowed
  repeat' split
  all_goals apart_s

theorem mechWith_apart (t : Token) (m f : Nat) : Apart (mechWith M t m f) := by
  unfold mechWith
  repeat' split
  all_goals apart_s

/-- The mechanisms never answer with one of the two codes. -/
structure MechsApart (M : Mechs) : Prop where
  new : ∀ e k m p o s, Apart (M.new e k m p o s)
  len : ∀ k a o n, Apart (M.len k a o n).1
  run : ∀ e k a o i, Apart (M.run e k a o i).1

theorem newOp_apart (hM : MechsApart M) (e : Env) (k : OpKind) (m : Nat) (p : Bytes) (key : Option Obj) (s : Bytes) :
    Apart (newOp M e k m p key s) := by
  unfold newOp
  simp only
  split
  · rename_i h
    refine Apart.map ?_ h
    split
    · exact famCheck_apart _ _ _
    · split <;> apart_s
  · split
    · rename_i h; exact (hM.new _ _ _ _ _ _).map h
    · apart_s

end Kry
