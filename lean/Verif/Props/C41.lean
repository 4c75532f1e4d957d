import Verif.Model.Fips

/-!
# C41: the FIPS indicator only goes down within an operation

"Once an operation or object has been marked not approved, no later step of the same operation marks
it approved."

Three things carry a mark: the session (what `C_GetSessionValidationFlags` reports), the approval kept
by an operation, and the validation flag of an object.

* `C41_session_partial`: on a session, once the indicator says "not approved", it says so as long as
  only calls follow that start no operation, begin no message and make no key.
* The indicator belongs to the session, not to the operation, and beginning a message clears it.  So an
  operation with a key that is not approved can end up reported as approved:
  `C41_message_violation`, `C41_shared_violation`, `C41_generate_violation`.
* `C41_operation`: the approval kept by an operation never goes up again until the next message, and
  `C41_detected`: a use that OpenSSL reports as not approved is never lost when it is looked at.
* `C41_object`: an operation found not approved leaves the object it makes unmarked.
  `C41_stored_violation`: reading that object back from the storage marks it as approved.
-/

namespace Kry

namespace Spec

/-- A call that starts no operation, begins no message and makes no key. -/
def continues : FipsCall → Bool
  | .digestKey _ => true
  | .finish _ => true
  | .other => true
  | _ => false

/-- What the session reports: its last operation was approved. -/
abbrev reportsApproved (i : Option Bool) : Prop := lastValidationFlags i = KRF_FIPS

end Spec

open Spec

theorem setIndicator_down (b : Bool) : setIndicator (some false) b = some false := rfl

theorem fipsStep_down (c : FipsCall) (h : continues c = true) : fipsStep (some false) c = some false := by
  cases c <;> first | rfl | cases h

/-- **C41, on the session (partial).**  After the indicator was set to "not approved", no sequence of
calls that starts no operation, begins no message and makes no key changes it. -/
theorem C41_session_partial (l : List FipsCall) (h : ∀ c ∈ l, continues c = true) :
    fipsRun (some false) l = some false ∧ ¬ reportsApproved (fipsRun (some false) l) := by
  have key : fipsRun (some false) l = some false := by
    induction l with
    | nil => rfl
    | cons c l ih =>
      have hc := fipsStep_down c (h c (by simp))
      unfold fipsRun at ih ⊢
      rw [List.foldl_cons, hc]
      exact ih (fun c hc => h c (by simp [hc]))
  exact ⟨key, by rw [key]; decide⟩

/-- An operation started with a key that is not approved is never reported as approved, while nothing
but its own calls happen on the session. -/
theorem C41_started_partial (i : Option Bool) (l : List FipsCall) (h : ∀ c ∈ l, continues c = true) :
    ¬ reportsApproved (fipsRun i (.initKey false :: l)) :=
  (C41_session_partial l h).2

/-- A use the operation itself reports as not approved is never reported as approved afterwards. -/
theorem C41_finished_partial (i : Option Bool) (l : List FipsCall) (a : Option Bool)
    (ha : a ≠ some true) (h : ∀ c ∈ l, continues c = true) :
    ¬ reportsApproved (fipsRun i (.finish a :: l)) := by
  have : fipsStep i (.finish a) = some false := by
    rcases i with _ | _ | _ <;> rcases a with _ | _ | _ <;> first | rfl | exact absurd rfl ha
  unfold fipsRun
  rw [List.foldl_cons, this]
  exact (C41_session_partial l h).2

/-- **C41, violated.**  `C_MessageEncryptInit` with a key that is not approved, then
`C_EncryptMessageBegin` and `C_EncryptMessageNext` of the same operation: the session reports the
operation as approved (`src/fns/encryption.rs:771`). -/
theorem C41_message_violation :
    fipsRun none [.initKey false] = some false ∧
    reportsApproved (fipsRun none [.initKey false, .messageBegin, .finish (some true)]) := by decide

/-- **C41, violated.**  `C_SignInit` with a key that is not approved, `C_DigestInit` and `C_Digest` on
the same session, then `C_SignFinal`: the signature is reported as approved
(`src/session.rs:558`). -/
theorem C41_shared_violation :
    reportsApproved (fipsRun none
      [.initKey false, .other, .initDigest, .finish (some true), .finish (some true)]) := by decide

/-- **C41, violated.**  The same with `C_GenerateKey` between `C_SignInit` and `C_SignFinal`. -/
theorem C41_generate_violation :
    reportsApproved (fipsRun none [.initKey false, .create (some true), .finish (some true)]) := by
  decide

/-! ### The approval kept by an operation -/

theorem approvalStep_down (a : Approval) (s : ApprovalStep) (ha : a.approved = some false)
    (hs : s ≠ .reset) : (approvalStep a s).approved = some false := by
  obtain ⟨ap, cell⟩ := a
  simp only at ha
  subst ha
  cases s <;> cases cell <;> first | rfl | exact absurd rfl hs

/-- **C41, the operation.**  Once the approval of an operation is "not approved" it stays so, whatever
is reported or claimed later, until `reset` starts the next message. -/
theorem C41_operation (a : Approval) (l : List ApprovalStep) (ha : a.approved = some false)
    (hl : ∀ s ∈ l, s ≠ .reset) : (approvalRun a l).approved = some false := by
  induction l generalizing a with
  | nil => exact ha
  | cons s l ih =>
    exact ih _ (approvalStep_down a s ha (hl s (by simp))) (fun s hs => hl s (by simp [hs]))

theorem approval_cell (a : Approval) (l : List ApprovalStep) (hc : a.cell = true)
    (hl : ∀ s ∈ l, s ≠ .clear) : (approvalRun a l).cell = true := by
  induction l generalizing a with
  | nil => exact hc
  | cons s l ih =>
    refine ih _ ?_ (fun s hs => hl s (by simp [hs]))
    obtain ⟨ap, cell⟩ := a
    simp only at hc
    subst hc
    cases s with
    | clear => exact absurd rfl (hl .clear (by simp))
    | set b =>
      simp only [approvalStep, Approval.set]
      split <;> rfl
    | finalize => rfl
    | callback => rfl
    | update => rfl
    | reset => rfl

/-- **C41, nothing is lost.**  A use that OpenSSL reports as not approved makes the operation not
approved at the next look (`update` or `finalize`), whatever happens in between except `clear`, and it
then stays so. -/
theorem C41_detected (a : Approval) (l m : List ApprovalStep) (look : ApprovalStep)
    (hk : look = .update ∨ look = .finalize) (hl : ∀ s ∈ l, s ≠ .clear) (hm : ∀ s ∈ m, s ≠ .reset) :
    (approvalRun a (.callback :: (l ++ look :: m))).approved = some false := by
  have hc : (approvalRun (approvalStep a .callback) l).cell = true := approval_cell _ l rfl hl
  have : approvalRun a (.callback :: (l ++ look :: m)) =
      approvalRun (approvalStep (approvalRun (approvalStep a .callback) l) look) m := by
    simp [approvalRun]
  rw [this]
  refine C41_operation _ m ?_ hm
  generalize approvalRun (approvalStep a .callback) l = b at hc
  obtain ⟨ap, cell⟩ := b
  simp only at hc
  subst hc
  rcases hk with h | h <;> subst h <;> rfl

/-! ### Objects -/

theorem isApprovedIn_false (ecLen : Obj → Option Nat) (mechanism op : Nat) (inp out : Bool)
    (iobj oobj o' : Option Obj) (ms : List FipsMechanism)
    (h : isApprovedIn ecLen mechanism op inp out iobj oobj ms = (false, o')) : o' = oobj := by
  induction ms with
  | nil => cases h; rfl
  | cons m ms ih =>
    unfold isApprovedIn at h
    split at h
    · exact ih h
    split at h
    · cases h; rfl
    split at h
    · cases h
    split at h
    · cases h; rfl
    split at h
    · cases h
    cases oobj with
    | none => exact ih h
    | some o =>
      simp only at h
      split at h
      · cases h
      split at h
      · split at h
        · split at h
          · cases h; rfl
          · simp only [Prod.mk.injEq] at h; exact h.2.symm
        · exact ih h
      · exact ih h

/-- **C41, the object made.**  When `is_approved` says no, the object is not touched: no mark is set
that the operation would not stand for. -/
theorem C41_object (ecLen : Obj → Option Nat) (mechanism op : Nat) (iobj oobj o' : Option Obj)
    (h : isApproved ecLen mechanism op iobj oobj = (false, o')) : o' = oobj := by
  unfold isApproved at h
  split at h
  · cases h; rfl
  · exact isApprovedIn_false _ _ _ _ _ _ _ _ _ h

/-- A secret key of 32 bytes made by `CKM_GENERIC_SECRET_KEY_GEN`, to be used for encryption, which the
rules do not allow for this mechanism. -/
def exSecret : Obj :=
  ⟨1, 0, CKO_SECRET_KEY, [.ofUlong CKA_CLASS CKO_SECRET_KEY, .ofUlong CKA_KEY_TYPE CKK_GENERIC_SECRET,
    .ofBool CKA_TOKEN true, .ofUlong CKA_VALUE_LEN 32, .ofBool CKA_SIGN true,
    .ofBool CKA_ENCRYPT true]⟩

set_option maxRecDepth 20000 in
/-- **C41, violated for objects.**  The key generated above is found not approved and is not marked.
Read back from the storage it is marked as approved (`src/storage/format.rs:328`), and signing with it
is approved. -/
theorem C41_stored_violation :
    isApproved (fun _ => none) CKM_GENERIC_SECRET_KEY_GEN CKF_GENERATE none (some exSecret) =
      (false, some exSecret) ∧ hasFipsFlag exSecret = false ∧
    hasFipsFlag (addMissingFlag (fun _ => none) exSecret) = true ∧
    (isApproved (fun _ => none) CKM_SHA256_HMAC CKF_SIGN
      (some (addMissingFlag (fun _ => none) exSecret)) none).1 = true := by
  refine ⟨?_, ?_, ?_, ?_⟩ <;> decide +kernel

/-! ### Non-vacuity -/

/-- The hypotheses of the session theorem hold for a multi-part signature, two parts long. -/
example : ∀ c ∈ [FipsCall.other, .other, .finish (some true)], continues c = true := by decide

/-- An approved operation is reported as approved, so the theorems do not hold for want of reports. -/
example : reportsApproved (fipsRun none [.initKey true, .other, .finish (some true)]) := by decide

/-- An operation that nothing was reported against is approved in the end. -/
example : (approvalRun .init [.clear, .update, .finalize]).approved = some true := by decide

/-- A report in the second part of three. -/
example : (approvalRun .init [.clear, .update, .clear, .callback, .update, .clear, .set true,
    .finalize]).approved = some false := by decide

end Kry
