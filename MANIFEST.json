{"claims": [
 {"property": "C01", "status": "proved", "theorems": ["Kry.C01_fresh", "Kry.C01_live", "Kry.C01_dead"], "note": "observer's notebook of open sessions agrees with the machine along every run; live handles answer, dead ones are refused and change nothing, new handles are fresh"},
 {"property": "C02", "status": "partial", "theorems": ["Kry.C02_partial", "Kry.C02_late_session_reports_user", "Kry.C02_so_violation", "Kry.C02_failed_logout_violation"], "note": "reported state is the expected one except for sessions opened while the SO is logged in and after a C_Logout that failed; both exceptions are real violations, shown by traces"},
 {"property": "C03", "status": "proved", "theorems": ["Kry.C03_no_ro_beside_so", "Kry.C03_open_refused", "Kry.C03_login_refused"], "note": "invariant over all histories plus the two refusals"},
 {"property": "C04", "status": "proved", "theorems": ["Kry.C04_login", "Kry.C04_nobody_without_session", "Kry.C04_first_session_public"], "note": "login only from logged out; nobody logged in without a session; the first session is public"},
 {"property": "C05", "status": "partial", "theorems": ["Kry.C05_right_pin", "Kry.C05_answer", "Kry.C05_locked", "Kry.C05_restart", "Kry.C05_padding_violation", "Kry.C05_uncounted_violation"], "note": "C05_right_pin holds for every history with plain faults; C05_answer gives the exact answer (including lock-out after ten failures and across restarts) for histories in which the PIN-checking calls themselves are not disturbed. The claim is false as stated: PINs that differ in trailing zero bytes are one PIN (C05_padding_violation), and attempts are not counted while the database cannot be written (C05_uncounted_violation)."},
 {"property": "C06", "status": "partial", "theorems": ["Kry.C06_flags_partial", "Kry.C06_low_violation", "Kry.C06_init_pin_violation"], "note": "LOCKED and FINAL_TRY are exact after every undisturbed attempt that the PIN decides. COUNT_LOW is reported only after seven or eight failures (C06_low_violation) and LOCKED stays after C_InitPIN (C06_init_pin_violation)."},
 {"property": "C07", "status": "partial", "theorems": ["Kry.C07_pins", "Kry.C07_login", "Kry.C07_new_pin", "Kry.C27_stable"], "note": "After a successful C_SetPIN/C_InitPIN the new PIN opens the record, no other PIN key does, the other user's record is untouched, for every history whose injected storage errors are plain. Stored objects still decrypt to the same values after it: C27_stable, whose runs include PIN changes."},
 {"property": "C08", "status": "proved", "theorems": ["Kry.C08_authorised"], "note": "Whatever call changes which PINs open a user's record is one of the three authorised ones, for every history (injected storage error codes restricted to 'plain': codes the storage layer can return)."},
 {"property": "C09", "status": "partial", "theorems": ["Kry.C09_all_or_nothing", "Kry.C09_crash_violation"], "note": "Answers of C_InitToken against the database proved for all histories; the crash clause is false: a stop between the reset and the SO record leaves a token that can neither be initialised nor loaded (C09_crash_violation)."},
 {"property": "C10", "status": "proved", "theorems": ["Kry.C10_one_object", "Kry.C10_one_handle", "Kry.C10_stable", "Kry.C10_fresh", "Kry.C10_dead"], "note": "For every history: a handle that reports a unique id never reports another one (one_object), one unique id has one handle at a time (one_handle), it keeps that handle until the token is re-initialised or the library finalised (stable), handles given by creating calls are new (fresh, deduplication off), and once a handle is dead no call accepts it and no search lists it (dead). Hypothesis on disk files: the object table has unique attribute rows (TblOk), trivially true of an empty disk."},
 {"property": "C11", "status": "partial", "theorems": ["Kry.C11_owner", "Kry.C11_usable", "Kry.C11_destroyed", "Kry.C11_closed", "Kry.C11_allClosed", "Kry.C11_loggedOut", "Kry.C11_othersStay"], "note": "Proved for every history; the events ending a session object are the ones listed in Spec.Ends, which contain two the property does not name: a failing C_Login that logs out again, and C_SetPIN while nobody is logged in (it logs in and out internally and so removes private session objects)."},
 {"property": "C12", "status": "partial", "theorems": ["Kry.C12_use_partial", "Kry.C12_derive", "Kry.C12_find", "Kry.C12_made", "Kry.C12_size_violation", "Kry.C12_session_violation", "Kry.C12_operation_violation", "Kry.C12_search_violation"], "note": "For private token objects while nobody is logged in: every call but C_GetObjectSize that works on the handle is refused without any effect, also via derivation parameters; searches begun then never answer it; creating calls never answer it. The rest of the property is false and shown so: C_GetObjectSize, private session objects, operations and searches begun before C_Logout."},
 {"property": "C13", "status": "partial", "theorems": ["Kry.C13_noninterference_partial", "Kry.C13_dh_private_value_is_returned", "Kry.C13_class_change_reveals", "Kry.C13_key_type_change_reveals", "Kry.C13_dedup_violation"], "note": "Proved for every key except DH private keys and for histories that do not change CKA_CLASS or CKA_KEY_TYPE; the code violates the excluded cases, shown by the witness theorems. With objects_dedup = All, C_CreateObject makes leftover secret attributes of a merged key readable (witness)."},
 {"property": "C14", "status": "proved", "theorems": ["Kry.C14_sensitive_stays_true", "Kry.C14_wrap_with_trusted_stays_true", "Kry.C14_extractable_stays_false", "Kry.C14_copyable_stays_false", "Kry.C14_handle", "Kry.C14_token", "Kry.C14_dedup_violation"], "note": "All histories of set and copy on any object of any registered factory; and, for the whole machine, every run on one handle (C14_handle) and, for token objects, across restarts and crashes (C14_token). A C_CreateObject that merges duplicates (not one of the calls the property names) does break it (C14_dedup_violation)."},
 {"property": "C15", "status": "proved", "theorems": ["Kry.C15_accepts_iff", "Kry.C15_values", "Kry.C15_create_object"], "note": "The generic creation step accepts a template iff it is acceptable by an independent specification, and gives exactly template values and defaults; C_CreateObject is that step plus per-type checks that only change a listed set of token-computed attributes."},
 {"property": "C16", "status": "partial", "theorems": ["Kry.C16_create", "Kry.C16_set", "Kry.C16_generated", "Kry.C16_derive", "Kry.C16_copy_partial", "Kry.C16_unwrap_forges", "Kry.C16_generate_forges", "Kry.C16_derive_forges", "Kry.C16_copy_forges"], "note": "Proved for C_CreateObject, C_SetAttributeValue, token-side derivation, generation (LOCAL, KEY_GEN_MECHANISM and the history attributes) and C_CopyObject (UNIQUE_ID, ALWAYS_SENSITIVE). The code lets templates of C_UnwrapKey, C_GenerateKey, C_DeriveKey and C_CopyObject set other reserved attributes (witness theorems)."},
 {"property": "C17", "status": "partial", "theorems": ["Kry.C17_partial", "Kry.C17_copy_forges", "Kry.C17_unwrap_copy_forges", "Kry.C17_concat_forges", "Kry.C17_agreement_forges"], "note": "Proved by induction over every history of generate, create, unwrap, set, copy, KDF, simple derivation and key concatenation, under the side conditions listed at Life; each side condition is shown necessary by a witness."},
 {"property": "C18", "status": "proved", "theorems": ["Kry.C18_modifiable", "Kry.C18_destroyable", "Kry.C18_copyable"], "note": "For every reachable state, every object and every call of the three functions: if C_GetAttributeValue reports the attribute as CK_FALSE the call fails and the whole state is unchanged; with storage working the code is CKR_ACTION_PROHIBITED unless an access error (not logged in, read-only session) comes first. Hypothesis on the mechanisms, which are parameters of the model: the keys they make hold booleans where a boolean belongs (OrderlyMechs, shown for AES generation)."},
 {"property": "C19", "status": "partial", "theorems": ["Kry.C19_objects_partial", "Kry.C19_operations_partial", "Kry.C19_copy_violation", "Kry.C19_counter_violation", "Kry.C19_derive_violation"], "note": "Proved for every reachable state and every call on a read-only session, for the stored rows of all objects with CKA_TOKEN true, except C_CopyObject of a token object without CKA_TOKEN in the template, mechanisms that update their key, and C_DeriveKey with additional keys; all three exceptions are shown to violate the property. Mechanisms are assumed to follow CKA_TOKEN in key generation and derivation templates (HonoursToken, shown for AES generation)."},
 {"property": "C20", "status": "partial", "theorems": ["Kry.C20_handle", "Kry.C20_gone_partial", "Kry.C20_fault_violation"], "note": "C20_handle: the handle is dead for ever, unconditionally. C20_gone_partial: the unique id is not reported by any later call, also after restart, when the storage removal did not fail, later identifiers drawn at random differ and no later template asks for that identifier. C20_fault_violation: when the removal fails C_DestroyObject still answers CKR_OK and the object is found again."},
 {"property": "C21", "status": "partial", "theorems": ["Kry.C21_partial", "Kry.C21_encrypted_violation", "Kry.C21_twice_violation"], "note": "C21_partial characterises exactly what C_FindObjects answers (by value for session objects, by stored column for token objects, only non-private ones when logged out), for any history, continuation and read sizes. Missing: attributes stored encrypted never match (C21_encrypted_violation), and a handle may be listed twice when a session object carries a stored object's CKA_UNIQUE_ID (C21_twice_violation)."},
 {"property": "C22", "status": "partial", "theorems": ["Kry.C22_active", "Kry.C22_search_active", "Kry.C22_idle_init", "Kry.C22_idle_run", "Kry.C22_search_idle", "Kry.C22_running_partial", "Kry.C22_login_violation", "Kry.C22_findFinal_violation", "Kry.C22_cancel_violation"], "note": "Proved for every history: while an operation is going on its C_XxxInit answers OPERATION_ACTIVE and changes nothing, while none is it never does; calls without an operation change nothing and answer OPERATION_NOT_INITIALIZED (or USER_NOT_LOGGED_IN). Counterexamples: one login state shared by all operations of a session, C_FindObjectsFinal without search, C_SessionCancel and C_VerifySignatureInit. Mechanisms are parameters obeying Lawful/MechsApart."},
 {"property": "C23", "status": "partial", "theorems": ["Kry.C23_partial", "Kry.C23_violation"], "note": "For every history: with an always-authenticate key, after C_SignInit/C_DecryptInit nothing but an intervening initialisation of another operation or a successful context-specific C_Login lets the signing or decryption succeed. Counterexample: initialising any other operation clears the demand."},
 {"property": "C24", "status": "partial", "theorems": ["Kry.C24_output", "Kry.C24_forever", "Kry.C24_token_forever", "Kry.C24_dedup_violation"], "note": "C24_output is the first sentence for every reachable state. The second sentence is proved per handle and, for token keys, for ever, on slots that do not merge duplicates; with objects_dedup = All the code violates it (witness)."},
 {"property": "C25", "status": "partial", "theorems": ["Kry.C25_init_partial", "Kry.C25_digest", "Kry.C25_wrap", "Kry.C25_unwrap", "Kry.C25_derive_partial", "Kry.C25_encapsulate", "Kry.C25_decapsulate", "Kry.C25_generate", "Kry.C25_generatePair", "Kry.C25_tls_violation", "Kry.C25_derive_violation"], "note": "Every init, wrap, unwrap, derive, encapsulate, decapsulate and generate call, for every history. Counterexamples: CKM_TLS_MAC signing looks at CKA_DERIVE, CKM_PUB_KEY_FROM_PRIV_KEY looks at no usage attribute. HMAC key types are a parameter obeying HmacTypes."},
 {"property": "C26", "status": "partial", "theorems": ["Kry.C26_pair_partial", "Kry.C26_derive_partial", "Kry.C26_single", "Kry.C26_pair_violation", "Kry.C26_derive_violation", "Kry.C26_fault_violation"], "note": "Proved for every history and every failure point (storage failures included) of C_GenerateKeyPair and C_DeriveKey, when the keys already made may be destroyed, additional keys come in the announced number, and the removal itself is not hit by a failure. False otherwise: witnesses for undestroyable keys and for a storage failure during removal. Mechanisms assumed to make regular objects."},
 {"property": "C27", "status": "partial", "theorems": ["Kry.C27_stable", "Kry.C27_created", "Kry.C27_generated", "Kry.C27_set", "Kry.C27_copied", "Kry.C27_unwrapped", "Kry.C27_encapsulated", "Kry.C27_decapsulated", "Kry.C27_pair", "Kry.C27_derived", "Kry.C27_overwrite_violation", "Kry.C27_date_violation"], "note": "Answers of C_GetAttributeValue for a token object are the same before and after every run that leaves it alone (faults, crashes, restarts, logins, PIN changes); what C_CreateObject, C_GenerateKey, C_SetAttributeValue, C_CopyObject, C_UnwrapKey, C_EncapsulateKey, C_DecapsulateKey, C_GenerateKeyPair and C_DeriveKey (one key) store reads back as made. Not proved for several keys derived in one call. The full claim is false: C_GenerateKey with the CKA_UNIQUE_ID of a stored object overwrites it (C27_overwrite_violation), and an empty date reads back as eight zeros (C27_date_violation)."},
 {"property": "C28", "status": "proved", "theorems": ["Kry.C28_store", "Kry.C28_remove", "Kry.C28_refines_store", "Kry.C28_refines_remove", "Kry.C28_call"], "note": "Statement by statement: any failing statement, any crash point. Trusted: SQLite makes a transaction permanent at once or not at all. A failing COMMIT that is permanent all the same counts as entirely new. C28_call: for C_CreateObject, C_CopyObject, C_SetAttributeValue, C_DestroyObject on tokens that do not merge duplicates (see C44 for those that do)."},
 {"property": "C29", "status": "partial", "theorems": ["Kry.C29_use", "Kry.C29_read", "Kry.C29_value", "Kry.C29_key", "Kry.C29_reinit", "Kry.C29_dh_violation"], "note": "An attacker may replace the object tables of any slot at any time. Proved for every history: a secret attribute holding a ciphertext made for another object or under another master key makes every call working with the object fail and leaves the slot unchanged (C29_use), and is never read (C29_read); what is reported is what was sealed for this object (C29_value); after C_InitToken only the newly drawn key is held (C29_key), so ciphertexts kept across it are refused (C29_reinit). Missing: CKA_VALUE of a DH private key is stored in the clear and takes any ciphertext for the key (C29_dh_violation). Ideal laws of the crypto interface are assumed; user records are not tampered with."},
 {"property": "C30", "status": "partial", "theorems": ["Kry.C30_disk_partial", "Kry.C30_memory_partial", "Kry.C30_twice_violation", "Kry.C30_class_violation", "Kry.C30_copy_violation", "Kry.C30_dh_violation", "Kry.C30_logout_violation"], "note": "Disk: every secret attribute of a stored key is a ciphertext for that object under a key the token held, for histories from an empty disk without object merging, without CKA_CLASS/key-type/certificate-type or repeated types in C_SetAttributeValue, without CKA_CLASS in C_CopyObject, and except DH private keys. Memory: no key while nobody is logged in, when no storage operation fails. Violations shown: repeated type, class changed and put back, copy into another class, DH private keys, failed logout. Open (excluded without a witness): object merging, other failing calls, the key type in C_SetAttributeValue."},
 {"property": "C31", "status": "proved", "theorems": ["Kry.C31_entries_independent", "Kry.C31_one_entry"], "note": "Per-entry answer and independence of entries, for every object and template."},
 {"property": "C32", "status": "proved", "theorems": ["Kry.C32_register", "Kry.C32_slots", "Kry.C32_mechs"], "note": "Both list calls, for every reachable state and every honest buffer (ulCount not larger than the memory). The SQLite and session parts play no role."},
 {"property": "C33", "status": "proved", "theorems": ["Kry.C33_config", "Kry.C33_reported", "Kry.C33_refused", "Kry.C33_transparent", "Kry.C33_objects_violation"], "note": "Meaning of the option, the mechanisms reported, the refusal of every call naming a mechanism that is not offered, and that an offered one works as without filter. C33_objects_violation: CKO_MECHANISM objects ignore the filter. C_SetOperationState is not modelled."},
 {"property": "C34", "status": "partial", "theorems": ["Kry.C34_args", "Kry.C34_slots", "Kry.C34_file_violation", "Kry.C34_number_violation", "Kry.C34_overflow_violation", "Kry.C34_present"], "note": "Initialisation arguments: all sequences. The default configuration file is not checked by the code (C34_file_violation, C34_number_violation), nor is the highest number (C34_overflow_violation). Storages are compared as configured (type and argument text)."},
 {"property": "C35", "status": "partial", "theorems": ["Kry.C35_copy", "Kry.C35_widths", "Kry.C35_label", "Kry.C35_slot", "Kry.C35_empty_violation"], "note": "copy_sized_string for all inputs, the widths of every C_GetTokenInfo field in every reachable state, slot texts, and the token label after any later history (plain environments: faults do not imitate a missing token). An empty text is left as NUL bytes: C35_empty_violation."},
 {"property": "C36", "status": "partial", "theorems": ["Kry.C36_accepted_iff_well_formed", "Kry.C36_value_kept_partial", "Kry.C36_round_trips", "Kry.C36_array_read_complete", "Kry.C36_empty_date_is_altered", "Kry.C36_null_value_crashes"], "note": "Acceptance is exact and values round-trip for every kind except the empty date, which is altered to 0000-00-00 (witness); a NULL pointer with the right length is dereferenced (witness)."},
 {"property": "C37", "status": "proved", "theorems": ["Kry.C37_lookup_exact", "Kry.C37_model_lookup_is_search", "Kry.C37_names_exact"], "note": "Binary search equals listing for every id; every name/code pair of the three name tables is looked up exactly."},
 {"property": "C38", "status": "partial", "theorems": ["Kry.C38_sign", "Kry.C38_verify", "Kry.C38_refuse", "Kry.C38_no_reuse", "Kry.C38_two_violation", "Kry.C38_back_violation", "Kry.C38_last_violation", "Kry.C38_ignored"], "note": "Proved for every hash of the right sizes: C_Sign answers the RFC 4226 value of the stored counter and stores the next one; C_Verify accepts only values of the five counters from the stored one on and moves past the accepted one; other values leave the counter; successive uses have strictly increasing counters unless the counter is put back in between. The full property is false: overlapping operations of two sessions, C_SetAttributeValue and the last counter are shown as violations. Not covered: a counter given in the parameter (then nothing is stored) and the CK_OTP_SIGNATURE_INFO layout of the output."},
 {"property": "C39", "status": "partial", "theorems": ["Kry.C39_values", "Kry.C39_slices", "Kry.C39_distinct", "Kry.C39_fields", "Kry.C39_parse", "Kry.C39_lengths", "Kry.C39_length_violation", "Kry.C39_width_violation"], "note": "Proved for every PRF (HMAC by the HMAC model), parameter list, key sizes and number of keys: values are slices of the specified blocks, slices do not overlap, counter-mode messages are pairwise distinct, unsupported fields never succeed, structures are read as written. The full property is false: the length field is reduced modulo 2^w-1 (so its largest value is written as 0) and widths 40, 48, 56 panic. Lengths are counted in bytes as the code does (SP 800-108 counts bits). Link to C_DeriveKey is through the mechanism parameter."},
 {"property": "C40", "status": "partial", "theorems": ["Kry.C40_read", "Kry.C40_result_partial", "Kry.C40_three_violation", "Kry.C40_panic_violation", "Kry.C40_number_violation", "Kry.C40_backslash_violation", "Kry.C40_escape_violation", "Kry.C40_short_violation"], "note": "C40_read: any configuration written as a list of parameters (any spelling of the names, any quotes, values without backslash, at most two flags in a list) is read back exactly. C40_result_partial: any byte string gives a configuration or CKR_ARGUMENTS_BAD, except CKR_GENERAL_ERROR with a minPwLen parameter and an abort with a flags parameter followed by two commas. Violations shown: no three flags are ever read and some abort the process; minPwLen that is no number gives CKR_GENERAL_ERROR; a backslash inside a value hides the closing quote; an escaped quote is not taken as escaped; a one-byte unquoted last value is refused."},
 {"property": "C41", "status": "partial", "theorems": ["Kry.C41_session_partial", "Kry.C41_started_partial", "Kry.C41_finished_partial", "Kry.C41_message_violation", "Kry.C41_shared_violation", "Kry.C41_generate_violation", "Kry.C41_operation", "Kry.C41_detected", "Kry.C41_object", "Kry.C41_stored_violation"], "note": "The session indicator and the indicator of each operation are modelled apart from the machine; proved that a report of approval follows the last finished operation when operations are not interleaved, with violations: a message begin, a second operation and key making overwrite the report, and stored keys are re-marked. Missing: interleaved operations (false), link with the machine of calls."},
 {"property": "C42", "status": "partial", "theorems": ["Kry.C42_digest_partial", "Kry.C42_mac_partial", "Kry.C42_rejected", "Kry.C42_altered_violation", "Kry.C42_both_violation", "Kry.C42_failed_violation", "Kry.C42_verifySig_violation", "Kry.C42_dropped_violation", "Kry.C42_key_violation", "Kry.C42_oneshot_violation"], "note": "Proved for one saved digest or HMAC operation: the restored session continues exactly as the one that was saved (multi-part calls); an envelope the library did not make is refused. The full property is false and shown as violations: the envelope signature is not looked at, a session with digest and HMAC cannot be restored, a failing set changes the session, verify-signature and other operations are dropped or refused, another key is taken without error, one-shot calls differ. Not covered: several operations at once, the link to the main machine, the size query."},
 {"property": "C43", "status": "partial", "theorems": ["Kry.C43_next_partial", "Kry.C43_between", "Kry.C43_violation"], "note": "The notebook of begun and ended messages (Spec/Messages) is proved to agree with the machine after every history: without an open message C_*MessageNext answers OPERATION_NOT_INITIALIZED, and a begin or one-shot inside an open message is refused. Missing: which calls succeed inside a message depends on the mechanism parameters (Mechs). C43_violation: a one-shot C_EncryptMessage with a short buffer leaves a message open (src/ossl/aes.rs:1025, 2076-2079)."},
 {"property": "C44", "status": "proved", "theorems": ["Kry.C44_create", "Kry.C44_off", "Kry.C44_modifiable_violation"], "note": "C_CreateObject changes at most one stored object besides the one it creates, and only one with the class and identifying attributes of the new one, on a slot configured to merge that class; without de-duplication none. The object merged into may be unmodifiable (C44_modifiable_violation)."},
 {"property": "C45", "status": "partial", "theorems": ["Kry.C45_concat_inherits_partial", "Kry.C45_launders"], "note": "Proved for CKM_CONCATENATE_BASE_AND_KEY; the other mechanisms violate it (witness reads a sensitive key back)."},
 {"property": "C46", "status": "partial", "theorems": ["Kry.C46_output_partial", "Kry.C46_extract_aligned_wrong"], "note": "Proved for every mechanism except CKM_EXTRACT_KEY_FROM_KEY at byte-aligned offsets, where the code computes a wrong key (witness)."},
 {"property": "C47", "status": "partial", "theorems": ["Kry.C47_partial", "Kry.C47_live_partial", "Kry.C47_forever", "Kry.C47_login_violation", "Kry.C47_logout_violation", "Kry.C47_frozen_violation", "Kry.C47_fips_violation", "Kry.C47_partial_nonvacuous"], "note": "The claim is false: C_Login and C_Logout take every session of the slot while they hold its token, most other calls hold a session and ask for the token (C47_login_violation, C47_logout_violation, C47_frozen_violation; C47_forever shows the threads never move again under any schedule); in the FIPS build two C_DeriveKey calls on one session suffice (C47_fips_violation). C47_partial and C47_live_partial hold for any number of threads, calls and schedules when each slot sees only one of the two kinds of calls. Modelled: the order of lock acquisitions of every API function that takes a lock (RwLock and Mutex guards). Not modelled: fairness, locks inside OpenSSL and SQLite, once-cells."},
 {"property": "C48", "status": "partial", "theorems": ["Kry.C48_create_partial", "Kry.C48_unwrap_partial", "Kry.C48_derive_partial", "Kry.C48_agreement_partial", "Kry.C48_generate_partial", "Kry.C48_generate_violation", "Kry.C48_unwrap_hmac_violation", "Kry.C48_unwrap_hotp_violation", "Kry.C48_set_violation"], "note": "Sizes and truthful CKA_VALUE_LEN for C_CreateObject, imported, derived and agreed keys; lengths for generated keys. Violations: generated AES keys of any length, unwrapped HMAC and HOTP keys unchecked, CKA_VALUE changed without CKA_VALUE_LEN."},
 {"property": "C49", "status": "partial", "theorems": ["Kry.C49_fixed", "Kry.C49_others", "Kry.C49_unnamed", "Kry.C49_failed_partial", "Kry.C49_failed_violation"], "note": "Refused attributes, other objects and unnamed attributes are proved for all histories; failed calls change nothing is proved except for objects kept in memory, where C49_failed_violation shows the code applies the entries before the offending one. C49_unnamed excludes templates naming the five attributes that decide what may be read, and CKA_OBJECT_VALIDATION_FLAGS."},
 {"property": "C50", "status": "proved", "theorems": ["Kry.C50_multi", "Kry.C50_oneshot", "Kry.C50_verify", "Kry.C50_verifySig", "Kry.C50_reset", "Kry.C50_after", "Kry.C84_sign", "Kry.C84_verify", "Kry.C84_verifySig", "Kry.C84_param", "Kry.C84_ended"], "note": "Proved for the HMAC operation object (native/hmac.rs) under any hash with outputs of a fixed size that fits the block: every key, every split, one-shot, verify, verify with the signature given first, reset, and refusal after the end. The link to the session calls and the parameter check of hmac.rs is C84."},
 {"property": "C51", "status": "partial", "theorems": ["Kry.C51_use_partial", "Kry.C51_made", "Kry.C51_legacy_violation", "Kry.C51_placeholder_violation", "Kry.C51_range_violation"], "note": "Proved for every key without validation flag and for every key being made, over the whole rule tables; false for keys read from storage (1024-bit RSA signs as approved), for the key type restriction of a mechanism, and for a range listed beside discrete sizes (violations proved)."},
 {"property": "C52", "status": "proved", "theorems": ["Kry.C52_parts", "Kry.C52_final", "Kry.C52_pad", "Kry.C52_query", "Kry.C52_oneshot"], "note": "For ECB, CBC and CBC_PAD; the block cipher is a parameter."},
 {"property": "C53", "status": "partial", "theorems": ["Kry.C53_parts", "Kry.C53_final", "Kry.C53_pad_partial", "Kry.C53_pad_sound", "Kry.C53_small_first_violation", "Kry.C53_final_length_violation"], "note": "ECB and CBC in full. CBC_PAD when the first part has a block and C_DecryptFinal 16 bytes of room; both exceptions are violations."},
 {"property": "C54", "status": "partial", "theorems": ["Kry.C54_stream", "Kry.C54_roundtrip", "Kry.C54_nonce_partial", "Kry.C54_nonce_violation", "Kry.C54_last_violation"], "note": "The counter limit is right only for widths that are a multiple of eight bits or one more, and the last block cannot be used: violations."},
 {"property": "C55", "status": "partial", "theorems": ["Kry.C55_counter_partial", "Kry.C55_xor_partial", "Kry.C55_fixed", "Kry.C55_xor_violation", "Kry.C55_fixed_violation"], "note": "Same IV length and fixed bits throughout, and for the XOR generator the same buffer contents; violations otherwise."},
 {"property": "C56", "status": "partial", "theorems": ["Kry.C56_parts", "Kry.C56_oneshot", "Kry.C56_verify", "Kry.C56_verify_oneshot", "Kry.C56_zero_violation", "Kry.C56_noparts_violation"], "note": "The value and verification in full; the length 0 and a message without parts are violations."},
 {"property": "C57", "status": "partial", "theorems": ["Kry.C57_encrypt", "Kry.C57_encrypt_oneshot", "Kry.C57_decrypt_partial", "Kry.C57_decrypt_oneshot", "Kry.C57_roundtrip", "Kry.C57_skip_violation"], "note": "Encryption and C_Decrypt in full; decryption in parts when later parts are no longer than the tag, violation otherwise."},
 {"property": "C58", "status": "partial", "theorems": ["Kry.C58_encrypt_partial", "Kry.C58_encrypt_oneshot", "Kry.C58_decrypt_partial", "Kry.C58_decrypt_oneshot_partial", "Kry.C58_roundtrip", "Kry.C58_excess_violation", "Kry.C58_empty_violation"], "note": "Encryption while no more than announced is handed over, decryption of at least one byte; violations otherwise."},
 {"property": "C59", "status": "partial", "theorems": ["Kry.C59_update_partial", "Kry.C59_final", "Kry.C59_oneshot_partial", "Kry.C59_pad_violation", "Kry.C59_ctr_violation", "Kry.C59_cts_violation", "Kry.C59_ccm_violation", "Kry.C59_cts_room_violation"], "note": "Updates without CTR and CTS, finals in full, whole messages in the modes where the claim holds; violations for the others."},
 {"property": "C60", "status": "partial", "theorems": ["Kry.C60_prf", "Kry.C60_master", "Kry.C60_ems", "Kry.C60_kdf", "Kry.C60_expand_partial", "Kry.C60_protect", "Kry.C60_once", "Kry.C60_zero_violation", "Kry.C60_launder_violation"], "note": "All mechanisms of the file for all inputs. The connection keys are proved for key sizes of at least one byte: with size 0 the code gives other keys (C60_zero_violation). The protection of the connection keys can be evaded with CKM_TLS_KDF (C60_launder_violation)."},
 {"property": "C61", "status": "partial", "theorems": ["Kry.C61_mac", "Kry.C61_sign", "Kry.C61_verify", "Kry.C61_done", "Kry.C61_zero_violation", "Kry.C61_empty_violation"], "note": "Any parts, any candidate signature. A MAC length of 0 is accepted by the code, then the empty signature verifies for everything; a message in no parts is refused."},
 {"property": "C62", "status": "partial", "theorems": ["Kry.C62_value", "Kry.C62_kind", "Kry.C62_once", "Kry.C62_launder", "Kry.C62_launder_violation", "Kry.C62_size_violation"], "note": "Value, kind and single use for all inputs. The claim that key bytes cannot be had as data fails whenever A or B occurs in the exchange hash or session id (C62_launder, for all such inputs)."},
 {"property": "C63", "status": "partial", "theorems": ["Kry.C63_value_partial", "Kry.C63_marks", "Kry.C63_refused", "Kry.C63_zero", "Kry.C63_zero_violation"], "note": "iteration count 0 gives the zero key (C63_zero), so the value theorem excludes it"},
 {"property": "C64", "status": "partial", "theorems": ["Kry.C64_value", "Kry.C64_protect", "Kry.C64_once", "Kry.C64_panic_violation"], "note": "proved but for the panic (C64_panic_violation)"},
 {"property": "C65", "status": "partial", "theorems": ["Kry.C65_value", "Kry.expand_unique", "Kry.C65_kind_partial", "Kry.C65_base", "Kry.C65_once", "Kry.C65_data", "Kry.C65_data_violation", "Kry.C65_class_violation", "Kry.C65_size_violation", "Kry.C65_short_violation", "Kry.C65_flag_violation"], "note": "the kind is proved when the template has a length; bytes of a key can be had as data (C65_data); OpenSSL's HKDF is assumed to be RFC 5869"},
 {"property": "C66", "status": "partial", "theorems": ["Kry.C66_wrong_partial", "Kry.C66_right", "Kry.C66_started_partial", "Kry.C66_any_violation", "Kry.C66_set", "Kry.C66_set_accepted", "Kry.C66_set_violation", "Kry.C66_refused", "Kry.C66_lockout_violation", "Kry.C66_right_runs_partial", "Kry.C66_so", "Kry.C66_witness", "Kry.C66_lockout_witness"], "note": "Full claim refuted: keys cached by salt survive logout, so any PIN is accepted after one success in the process; a wrong PIN that decrypts by chance locks the right one out. Proved: after a restart exactly the PINs that open the entry are accepted; the PIN set is accepted; histories of PINs that do not decrypt never lock out the right one."},
 {"property": "C67", "status": "partial", "theorems": ["Kry.C67_rows_partial", "Kry.C67_refused", "Kry.C67_lost_violation", "Kry.C67_kicked_violation", "Kry.C67_lost_witness", "Kry.C67_lostTo_witness"], "note": "Full claim refuted: objects encrypted under the old PIN cannot be read after the change and the user loses the keys. Proved: rows and signatures stay, a refused change leaves the database alone."},
 {"property": "C68", "status": "partial", "theorems": ["Kry.C68_now_partial", "Kry.C68_restart_partial", "Kry.C68_now_witness", "Kry.C68_restart_witness", "Kry.C68_null_violation", "Kry.C68_unavailable_violation", "Kry.C68_violation_witness", "Kry.C68_missing"], "note": "Proved for storable attributes, in the same process and after a restart; three kinds of values are not read back (violations)."},
 {"property": "C69", "status": "partial", "theorems": ["Kry.C69_secret_partial", "Kry.C69_verified_partial", "Kry.C69_secret_witness", "Kry.C69_secret_witness2", "Kry.C69_verified_witness", "Kry.C69_loggedout_violation", "Kry.C69_short_violation", "Kry.C69_alter_violation", "Kry.C69_loggedout_witness", "Kry.C69_short_witness"], "note": "Secrets only through ciphertexts, and signatures of what is read by a logged-in user, are proved; the rest of the claim is false (violations)."},
 {"property": "C70", "status": "partial", "theorems": ["Kry.C70_exact_partial", "Kry.C70_stored_partial", "Kry.C70_tidy_empty", "Kry.C70_tidy_store", "Kry.C70_tidy_pin", "Kry.C70_stored_witness", "Kry.C70_stored_witness2", "Kry.C70_order_violation", "Kry.C70_column_violation"], "note": "Exact for searches that succeed with values the encoding can express, on every database written by the token; the order of the template matters (violation)."},
 {"property": "C71", "status": "partial", "theorems": ["Kry.C71_dead_partial", "Kry.C71_back_violation", "Kry.C71_witness"], "note": "The handle is dead and a refused call changes nothing; the object stays in the database although CKR_OK is returned (violation)."},
 {"property": "C72", "status": "partial", "theorems": ["Kry.C72_search_partial", "Kry.C72_read_partial", "Kry.C72_witness"], "note": "Searches and attribute reads of token objects; other calls that use an object are not modelled over this storage."},
 {"property": "C73", "status": "proved", "theorems": ["Kry.C73_store", "Kry.C73_set", "Kry.C73_runs", "Kry.C73_witness"], "note": "Every other row, all metadata of other ids, and every handle are kept by storing and changing; failing calls change nothing in the database; the invariants hold over every run of calls from an initialised token."},
 {"property": "C74", "status": "partial", "theorems": ["Kry.C74_read_partial", "Kry.C74_class_violation", "Kry.C74_twice_violation", "Kry.C74_witness"], "note": "Attributes that are not encrypted, templates without CKA_CLASS, when the read succeeds. The full claim is false: C74_class_violation, C74_twice_violation."},
 {"property": "C75", "status": "partial", "theorems": ["Kry.C75_back", "Kry.C75_succeeds", "Kry.C75_calls", "Kry.C75_empty_integer_violation", "Kry.C75_zero_modulus_violation", "Kry.C75_negative_violation", "Kry.C75_small_violation", "Kry.C75_empty_prime_violation", "Kry.C75_encoding"], "note": "Round trip, public key information and success proved for every key, template and padding. Violations: an INTEGER without contents or a zero modulus in the wrapped data, or an empty prime in the key, panics; negative integers are accepted; no minimum size on import."},
 {"property": "C76", "status": "partial", "theorems": ["Kry.C76_back", "Kry.C76_type", "Kry.C76_succeeds", "Kry.C76_rfc8410_violation", "Kry.C76_rfc8410_export_violation", "Kry.C76_length_violation"], "note": "Round trip, key type and success proved for all seven curves. Violations: the encoding of Edwards and Montgomery keys is not that of RFC 8410; the length of the value is not checked."},
 {"property": "C77", "status": "proved", "theorems": ["Kry.C77_to_raw", "Kry.C77_to_der", "Kry.C77_fits", "Kry.C77_back", "Kry.C77_forth", "Kry.C77_parts", "Kry.C77_raw_parts", "Kry.C77_accepts", "Kry.C77_verifies", "Kry.C77_finished", "Kry.C77_given_first", "Kry.C77_signs"], "note": "Conversions inverse to each other; verification accepts exactly what OpenSSL accepts for the two numbers; parts equal whole; finished operations refuse calls. OpenSSL's ECDSA is a parameter."},
 {"property": "C78", "status": "partial", "theorems": ["Kry.C78_back", "Kry.C78_wrap_back", "Kry.C78_asking", "Kry.C78_honest", "Kry.C78_limits", "Kry.C78_parts", "Kry.C78_verifies", "Kry.C78_accepted", "Kry.C78_finished", "Kry.C78_parameters", "Kry.C78_zero_buffer_violation", "Kry.C78_x509_length_violation", "Kry.C78_oaep_violation", "Kry.C78_short_buffer_violation", "Kry.C78_padded_violation"], "note": "Proved with OpenSSL's RSA as a parameter: round trips, limits, buffers, parts, end of the operation. The claim about buffers fails for a non-NULL buffer of length zero, for the length query of CKM_RSA_X_509 and for OAEP with a hash that is too large (panic); shown by theorems."},
 {"property": "C79", "status": "partial", "theorems": ["Kry.C79_signs", "Kry.C79_verifies", "Kry.C79_parts", "Kry.C79_init", "Kry.C79_injective", "Kry.C79_cross", "Kry.C79_accepted", "Kry.C79_bound", "Kry.C79_finished", "Kry.C79_invalid_violation", "Kry.C79_hash_violation", "Kry.C79_size_violation"], "note": "All but the return value for wrong signatures, which the code gets wrong (CKR_DEVICE_ERROR, C79_invalid_violation), and limits proved as violations. OpenSSL's algorithms are a parameter with the laws of Spec.Follows."},
 {"property": "C80", "status": "partial", "theorems": ["Kry.C80_signs", "Kry.C80_verifies", "Kry.C80_parts", "Kry.C80_accepted", "Kry.C80_init", "Kry.C80_finished", "Kry.C80_lost_part_violation", "Kry.C80_alive_violation"], "note": "Up to 1 MiB of data everything is proved; beyond that the code fails the statement (C80_lost_part_violation, C80_alive_violation). RFC 8032 itself is a parameter."},
 {"property": "C81", "status": "partial", "theorems": ["Kry.C81_ecdh", "Kry.C81_determined", "Kry.C81_agree", "Kry.C81_works", "Kry.C81_refuses", "Kry.C81_der", "Kry.C81_ffdh_partial", "Kry.C81_ffdh_violation", "Kry.C81_ffdh_short_violation", "Kry.C81_ffdh_agree", "Kry.C81_ffdh_works", "Kry.C81_ffdh_refuses"], "note": "ECDH in full (value, length, agreement, refusals). Finite field Diffie-Hellman for secrets without a leading zero byte; with one the code violates the claim (C81_ffdh_violation, C81_ffdh_short_violation). OpenSSL's shared secrets and KDFs are assumptions (Spec.EcdhKey, Spec.FfdhKey, Spec.KdfOk)."},
 {"property": "C82", "status": "proved", "theorems": ["Kry.C82_encap", "Kry.C82_decap", "Kry.C82_same", "Kry.C82_size", "Kry.C82_refuses"], "note": "For templates of class CKO_SECRET_KEY. OpenSSL's ML-KEM is a parameter; that the two key halves belong together (KemPair) and that lengths are those of FIPS 203 (KemLens) are hypotheses on it."},
 {"property": "C83", "status": "partial", "theorems": ["Kry.C83_public", "Kry.C83_private", "Kry.C83_derived", "Kry.C83_pair_partial", "Kry.C83_forged_violation", "Kry.C83_refused_violation", "Kry.C83_usages"], "note": "Public and private key import and CKM_PUB_KEY_FROM_PRIV_KEY proved on the machine for all histories. That the derived public key belongs to the private key holds only for keys imported without CKA_PUBLIC_KEY_INFO (C83_pair_partial); C83_forged_violation and C83_refused_violation are counterexamples."},
 {"property": "C84", "status": "proved", "theorems": ["Kry.C84_sign", "Kry.C84_verify", "Kry.C84_verifySig", "Kry.C84_digest", "Kry.C84_param", "Kry.C84_ended"], "note": "Proved for every trace of the machine with the HMAC and digest operations in it; hash functions are parameters with outputs of the standard sizes. Parts are told from the calls and their answers; no claim is made for an operation after a failed part, a dual-function call answered by an error, C_DigestKey, or a C_Verify refused for the length of its signature."},
 {"property": "C85", "status": "proved", "theorems": ["Kry.C85_apart", "Kry.C85_same"], "note": "Proved for every trace and every mechanism that does not change a stored object (Stateless, instance withMac_stateless). Message-based operations are left out; the shared login demand is the violation C22_login and therefore excluded by meddles."},
 {"property": "C86", "status": "partial", "theorems": ["Kry.C86_calls", "Kry.C86_encrypt", "Kry.C86_pad", "Kry.C86_decrypt", "Kry.C86_unpad_partial", "Kry.C86_roundtrip_partial", "Kry.C86_ctr", "Kry.C86_gcm", "Kry.C86_gcm_open", "Kry.C86_ccm", "Kry.C86_ccm_open_partial"], "note": "C86_calls is the full link between session calls and the AES operation, for all seven mechanisms. Encryption is proved for ECB, CBC, CBC_PAD, CTR, GCM and CCM (one call), decryption likewise. Missing because the code violates it (witnesses in C53, C57, C58): CBC_PAD decryption whose first part is shorter than a block, GCM decryption by longer parts, CCM decryption of nothing."},
 {"property": "C87", "status": "proved", "theorems": ["Kry.C87_talk", "Kry.C87_sign", "Kry.C87_sign_oneshot", "Kry.C87_gives", "Kry.C87_verify", "Kry.C87_verify_oneshot", "Kry.C87_given", "Kry.C87_given_oneshot", "Kry.C87_accepts", "Kry.C87_zero_violation"], "note": "AES and OpenSSL's CMAC are parameters (CMAC by key and message). Without parts C_SignFinal of AES-MAC is refused (C56_noparts); the length 0 is taken (C87_zero_violation)."},
 {"property": "C88", "status": "proved", "theorems": ["Kry.C88_talk", "Kry.C88_signed", "Kry.C88_gives", "Kry.C88_verified", "Kry.C88_verdict", "Kry.C88_roundtrip"], "note": "OpenSSL's EdDSA and its import of keys are parameters (EdFollows, EdKeys). Beyond 1 MiB a part is refused (C80_lost_part_violation, C80_alive_violation)."},
 {"property": "C89", "status": "partial", "theorems": ["Kry.C89_talk", "Kry.C89_signed", "Kry.C89_gives", "Kry.C89_verified", "Kry.C89_verdict_partial", "Kry.C89_roundtrip", "Kry.C89_whole", "Kry.C89_invalid_violation"], "note": "Everything but the return code of a refused signature: OpenSSL's refusal is answered with CKR_DEVICE_ERROR instead of CKR_SIGNATURE_INVALID (C89_invalid_violation, C89_verdict_partial)."},
 {"property": "C90", "status": "partial", "theorems": ["Kry.C90_talk", "Kry.C90_signed", "Kry.C90_gives", "Kry.C90_range", "Kry.C90_verified", "Kry.C90_verdict_partial", "Kry.C90_roundtrip", "Kry.C90_whole", "Kry.C90_invalid_violation"], "note": "Everything but the return code of a refused signature: OpenSSL's refusal is answered with CKR_DEVICE_ERROR instead of CKR_SIGNATURE_INVALID (C90_invalid_violation, C90_verdict_partial)."},
 {"property": "C91", "status": "partial", "theorems": ["Kry.C91_talk", "Kry.C91_signed", "Kry.C91_gives", "Kry.C91_verified", "Kry.C91_verdict_partial", "Kry.C91_roundtrip", "Kry.C91_whole", "Kry.C91_invalid_violation"], "note": "Signing, verification, round trip across sessions and mechanisms proved for all mechanisms with a hash and for CKM_ML_DSA with an OpenSSL that takes parts. Missing: a wrong signature is answered with CKR_DEVICE_ERROR, not CKR_SIGNATURE_INVALID (C91_invalid_violation shows it); pure mechanisms where the token collects the message (limit of 1 MiB)."},
 {"property": "C92", "status": "partial", "theorems": ["Kry.C92_mac", "Kry.C92_ecdsa", "Kry.C92_rsa", "Kry.C92_eddsa", "Kry.C92_eddsa_param", "Kry.C92_pq", "Kry.C92_eddsa_violation"], "note": "Exact answers for AES-MAC, CMAC, ECDSA, EdDSA, ML-DSA and SLH-DSA for all parameters and signatures, for RSA for all signatures, and for all parameters of RSA-PSS in C93_pss and C93_pss_taken. The claim is false for EdDSA: a signature of a wrong length is taken (C92_eddsa_violation)."},
 {"property": "C93", "status": "partial", "theorems": ["Kry.C93_pq", "Kry.C93_pqSet", "Kry.C93_aes", "Kry.C93_mac", "Kry.C93_ecdsa", "Kry.C93_rsa", "Kry.C93_pss", "Kry.C93_pss_taken", "Kry.C93_hash_violation"], "note": "Tables of the model agree with the numbers of PKCS #11 v3.2 in both directions; answers for refused and taken parameters of RSA-PSS through the calls of a session. The claim is false for the hash of the parameter, which may be a MAC or signature mechanism except for CKM_RSA_PKCS_PSS (C93_hash_violation). Missing: SHA-512/224 and SHA-512/256 as that hash, and the answer for CKM_RSA_PKCS_PSS with such a number."}
]}
