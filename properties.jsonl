{"id": "C01", "title": "Session handles are never reused or aliased", "statement": "Between C_Initialize and C_Finalize, a handle returned by C_OpenSession is non-zero and differs from every handle returned earlier. A call naming a handle is treated as naming a live session exactly when that handle was returned by C_OpenSession and no later successful C_CloseSession, C_CloseAllSessions (on its slot) or C_Finalize ended it; otherwise the call fails with CKR_SESSION_HANDLE_INVALID (or CKR_CRYPTOKI_NOT_INITIALIZED).", "quantifier": "every finite history of API calls on any number of slots and sessions", "why_tests_cant": "Depends on unbounded histories of open/close over many slots; tests only sample a few orders.", "anchors": ["src/lib.rs: State::new_session, drop_session, drop_all_sessions_slot, get_session, finalize", "src/fns/sessmgmt.rs"]}
{"id": "C02", "title": "Reported session state agrees with the token's login state", "statement": "At every moment, C_GetSessionInfo on any open session of a slot reports the public state if nobody is logged in to that slot's token, the user state if the normal user is logged in and the SO state if the SO is logged in, with the R/O or R/W variant matching how the session was opened.", "quantifier": "every reachable state, every open session", "why_tests_cant": "State is stored redundantly (per session and per token); agreement must hold after every interleaving of open, close, login, logout, failed logins and failed logouts.", "anchors": ["src/session.rs: Session::new, change_session_state", "src/slot.rs: change_session_states, invalidate_session_states", "src/token.rs: login, logout", "src/fns/sessmgmt.rs: login, logout"]}
{"id": "C03", "title": "The SO is never logged in beside a read-only session", "statement": "No reachable state has the SO logged in to a token while a read-only session is open on it: C_Login(SO) fails with CKR_SESSION_READ_ONLY_EXISTS and C_OpenSession (R/O) fails with CKR_SESSION_READ_WRITE_SO_EXISTS.", "quantifier": "every history of API calls", "why_tests_cant": "An invariant over all histories.", "anchors": ["src/fns/sessmgmt.rs: open_session, login", "src/slot.rs: has_ro_sessions"]}
{"id": "C04", "title": "Login is mutually exclusive and ends with the last session", "statement": "At most one of SO and user is logged in to a token; C_Login succeeds only from the logged-out state; after the last session of a slot is closed (by C_CloseSession or C_CloseAllSessions) nobody is logged in to that token, and a new session starts public.", "quantifier": "every history of API calls", "why_tests_cant": "Needs an invariant relating the set of sessions and the login state over all histories.", "anchors": ["src/token.rs: login, logout", "src/lib.rs: drop_session", "src/fns/sessmgmt.rs: close_session, close_all_sessions, login"]}
{"id": "C05", "title": "A PIN is verified only with the right PIN, and locks after ten failures", "statement": "C_Login succeeds only when the presented PIN equals the PIN last set for that user and fewer than ten attempts have failed since the last success or PIN reset. After ten consecutive failures every attempt, including one with the right PIN, fails with CKR_PIN_LOCKED until the PIN is reset by C_InitPIN/C_InitToken. Restarting the process does not reset the count.", "quantifier": "every sequence of authentication attempts with arbitrary PINs, resets and process restarts", "why_tests_cant": "The count must survive arbitrary sequences; the interesting bound is on histories.", "anchors": ["src/storage/aci.rs: authenticate, locked, key_to_user_data", "src/storage/format.rs: auth_user", "src/token.rs: auth_user, login"]}
{"id": "C06", "title": "PIN-status flags tell the truth", "statement": "After any authentication attempt the COUNT_LOW, FINAL_TRY and LOCKED bits that C_GetTokenInfo reports for that user hold exactly when, respectively, at least one attempt failed since the last success, exactly one attempt is left, and no attempt is left.", "quantifier": "every sequence of attempts", "why_tests_cant": "Flags are derived state updated on several paths.", "anchors": ["src/storage/format.rs: user_flags, auth_user, init_pin_flags", "src/token.rs: update_auth_flags"]}
{"id": "C07", "title": "Changing a PIN neither loses objects nor leaves the old PIN working", "statement": "After C_SetPIN or C_InitPIN succeeds for a user, the new PIN authenticates, any different PIN (including the old one) does not, the other user's PIN is unaffected, and every encrypted object stored before is still decrypted to the same value.", "quantifier": "every stored object set, every pair of PINs", "why_tests_cant": "Requires the key hierarchy to be preserved across every sequence of changes.", "anchors": ["src/storage/format.rs: set_user_pin", "src/storage/aci.rs: key_to_user_data, authenticate", "src/fns/stmgmt.rs: set_pin, init_pin", "src/token.rs: set_pin"]}
{"id": "C08", "title": "C_SetPIN and C_InitPIN are authorised", "statement": "A user's PIN changes only by: C_SetPIN presenting the current PIN of that user; C_InitPIN while the SO is logged in; or C_InitToken presenting the SO PIN (or on an uninitialised token).", "quantifier": "every history of API calls", "why_tests_cant": "A safety property over all histories.", "anchors": ["src/fns/stmgmt.rs: init_token, init_pin, set_pin", "src/token.rs: initialize, set_pin, auth_user"]}
{"id": "C09", "title": "C_InitToken erases everything, or nothing", "statement": "A successful C_InitToken removes every token object and the user PIN, and a failed authentication leaves the token as it was. If the process dies at any point inside C_InitToken, the token afterwards is either the old one or can be initialised again.", "quantifier": "every token content, every crash point", "why_tests_cant": "Crash points between database transactions cannot be enumerated by unit tests.", "anchors": ["src/token.rs: initialize, Token::new", "src/storage/format.rs: reinit, open", "src/storage/sqlite.rs: db_reset, store_user, store_token_info"]}
{"id": "C10", "title": "Object handles are stable and never reused", "statement": "Within one initialisation of a token an object handle denotes at most one object for ever: two live objects never share a handle, one object never has two handles, repeated searches return the same handle for the same object, and the handle of a destroyed object is never given to another object.", "quantifier": "every history of create, copy, generate, search, destroy, close and logout", "why_tests_cant": "Aliasing appears only on particular long histories.", "anchors": ["src/token.rs: Handles, insert_object, destroy_object", "src/storage/format.rs: store, search, remove"]}
{"id": "C11", "title": "Session objects live exactly as long as their session", "statement": "A session object can be used from any session of the token until it is destroyed, its creating session is closed, or (if private) the user logs out; afterwards its handle is invalid and no search returns it. Closing a session removes no other session's objects and no token object.", "quantifier": "every history of API calls", "why_tests_cant": "Lifetime is a history property.", "anchors": ["src/token.rs: clear_session_objects, clear_private_session_objects, drop_session_objects", "src/fns/sessmgmt.rs: close_session, close_all_sessions", "src/lib.rs: drop_session"]}
{"id": "C12", "title": "Private objects are out of reach without login", "statement": "While nobody is logged in, no call returns a private object's handle, attribute values or size, uses it in an operation, modifies, copies or destroys it.", "quantifier": "every reachable state, every call and every private object", "why_tests_cant": "Must hold for every entry point and every stored object.", "anchors": ["src/token.rs: get_object_by_handle, get_object_attrs, get_object_size, copy_object, search_objects", "src/storage/format.rs: fetch, search"]}
{"id": "C13", "title": "Sensitive values are never returned", "statement": "C_GetAttributeValue on an object that is sensitive or not extractable reveals nothing about its secret attributes: replacing their values by any others of any length changes no byte and no length that is returned. An object once sensitive (or unextractable) stays so under every later C_SetAttributeValue and every copy of it.", "quantifier": "every object type, template, buffer and later history", "why_tests_cant": "Non-interference over all values cannot be tested.", "anchors": ["src/object/factory.rs: get_object_attributes, check_set_attributes, default_copy", "src/object/mod.rs: is_sensitive, is_extractable, set_attr"]}
{"id": "C14", "title": "One-way attributes only move one way", "statement": "CKA_SENSITIVE and CKA_WRAP_WITH_TRUSTED never go from true to false, and CKA_EXTRACTABLE and CKA_COPYABLE never from false to true, by any C_SetAttributeValue or C_CopyObject.", "quantifier": "every object, every sequence of attribute changes and copies", "why_tests_cant": "Sequences of changes are unbounded.", "anchors": ["src/object/factory.rs: OAFlags, check_set_attributes, set_object_attributes, default_copy", "src/object/key.rs"]}
{"id": "C15", "title": "Object templates are checked completely", "statement": "C_CreateObject succeeds only if every template attribute is known for the class, none is repeated, none is reserved to the token, and every required attribute is present; on success the object has exactly the template's values plus defaults for what was left out.", "quantifier": "every template of any length, every object type", "why_tests_cant": "The space of templates is infinite.", "anchors": ["src/object/factory.rs: internal_object_create, default_object_create, ObjectFactories::create", "src/object/key.rs: key_create"]}
{"id": "C16", "title": "Reserved attributes cannot be forged", "statement": "No application-supplied template of C_CreateObject, C_GenerateKey, C_GenerateKeyPair, C_UnwrapKey, C_DeriveKey, C_CopyObject or C_SetAttributeValue decides the value of CKA_LOCAL, CKA_KEY_GEN_MECHANISM, CKA_ALWAYS_SENSITIVE, CKA_NEVER_EXTRACTABLE, CKA_TRUSTED or CKA_UNIQUE_ID of a key.", "quantifier": "every template and key type", "why_tests_cant": "All templates on all paths.", "anchors": ["src/object/factory.rs: ObjectAttr::is, internal_object_create, default_copy, check_set_attributes", "src/object/key.rs: key_generate, key_unwrap, internal_key_derive"]}
{"id": "C17", "title": "ALWAYS_SENSITIVE and NEVER_EXTRACTABLE are truthful", "statement": "If a key reports CKA_ALWAYS_SENSITIVE true then it and every object it was copied or derived from has been sensitive at all times since generation; likewise for CKA_NEVER_EXTRACTABLE and unextractability. Imported keys report false.", "quantifier": "every history of generate, create, copy, derive, unwrap and set-attribute", "why_tests_cant": "A history property by definition.", "anchors": ["src/object/key.rs: default_key_attributes, key_create, internal_key_derive, key_unwrap", "src/object/factory.rs: default_copy"]}
{"id": "C18", "title": "Modifiable, destroyable and copyable are respected", "statement": "An object with CKA_MODIFIABLE, CKA_DESTROYABLE or CKA_COPYABLE false is never changed, removed or duplicated by C_SetAttributeValue, C_DestroyObject or C_CopyObject: the call fails with CKR_ACTION_PROHIBITED and nothing changes.", "quantifier": "every object and call", "why_tests_cant": "All objects, including ones where the attribute is missing or malformed.", "anchors": ["src/token.rs: set_object_attrs, destroy_object, copy_object", "src/object/factory.rs: copy, set_object_attributes"]}
{"id": "C19", "title": "Read-only sessions do not change token objects", "statement": "No call made on a read-only session creates, modifies, copies into being, or destroys an object with CKA_TOKEN true.", "quantifier": "every call and template on a read-only session", "why_tests_cant": "All entry points and templates.", "anchors": ["src/fns/mod.rs: fail_if_cka_token_true", "src/fns/objmgmt.rs: create_object, copy_object, destroy_object, set_attribute_value", "src/fns/keymgmt.rs"]}
{"id": "C20", "title": "Destroyed objects are gone", "statement": "After C_DestroyObject returns CKR_OK its handle is invalid for every later call and the object is not found by any later search, in this process or after a restart.", "quantifier": "every object, every later history, storage errors included", "why_tests_cant": "Needs all histories and fault points.", "anchors": ["src/token.rs: destroy_object", "src/storage/format.rs: remove", "src/storage/sqlite.rs: delete_object"]}
{"id": "C21", "title": "Search returns exactly the matching visible objects", "statement": "The handles that C_FindObjects returns over the life of one search are exactly those of the objects visible to the session that match the template when C_FindObjectsInit was called, each once, whatever sizes the application asks for.", "quantifier": "every object population, template and sequence of ulMaxObjectCount values", "why_tests_cant": "All populations and chunkings.", "anchors": ["src/session.rs: SessionSearch, new_search_operation", "src/token.rs: search_objects", "src/storage/format.rs: search", "src/storage/sqlite.rs: search", "src/fns/objmgmt.rs: find_objects_init, find_objects, find_objects_final"]}
{"id": "C22", "title": "One active operation of each kind per session", "statement": "C_XxxInit fails with CKR_OPERATION_ACTIVE iff an operation of that kind is active in the session; update and final calls fail with CKR_OPERATION_NOT_INITIALIZED iff none is; an operation ends exactly by its final call, its one-shot call, cancellation, or an error the mechanism treats as fatal; other sessions and other kinds are not affected.", "quantifier": "every history of operation calls on every number of sessions", "why_tests_cant": "Interleavings of nine operation kinds over many sessions.", "anchors": ["src/session.rs: impl_mop, get_operation, set_operation", "src/fns/signing.rs", "src/fns/encryption.rs", "src/fns/digest.rs", "src/fns/sessmgmt.rs: session_cancel"]}
{"id": "C23", "title": "Always-authenticate keys need a fresh PIN per use", "statement": "C_Sign, C_SignFinal, C_Decrypt and C_DecryptFinal with a key whose CKA_ALWAYS_AUTHENTICATE is true succeed only if C_Login(CKU_CONTEXT_SPECIFIC) with the right PIN succeeded in that session after the operation was initialised.", "quantifier": "every interleaving of operations in a session", "why_tests_cant": "Depends on unusual interleavings of operations in one session.", "anchors": ["src/session.rs: check_login_status, set_operation, get_operation, set_login_ok, state_restore", "src/fns/sessmgmt.rs: login", "src/fns/signing.rs: sign_init", "src/fns/encryption.rs: decrypt_init"]}
{"id": "C24", "title": "Wrapping obeys the key policy", "statement": "C_WrapKey outputs a key only if the wrapped key is extractable, the wrapping key permits CKA_WRAP and the mechanism, and, when the wrapped key demands CKA_WRAP_WITH_TRUSTED, the wrapping key is trusted. A key refused once for being unextractable is refused in every later state.", "quantifier": "every pair of keys, mechanism and later history", "why_tests_cant": "Decision over all attribute combinations and histories.", "anchors": ["src/fns/keymgmt.rs: wrap_key", "src/object/key.rs: default_export_for_wrapping", "src/rsa.rs, src/aes.rs: export_for_wrapping"]}
{"id": "C25", "title": "Key usage and mechanism restrictions are enforced", "statement": "An operation starts only if the mechanism is offered by the token for that purpose, is among the key's CKA_ALLOWED_MECHANISMS when that attribute is present, and the key's usage attribute for the operation is true.", "quantifier": "every key, mechanism and operation", "why_tests_cant": "All combinations.", "anchors": ["src/lib.rs: check_allowed_mechs", "src/object/mod.rs: check_key_ops", "src/fns/signing.rs, encryption.rs, keymgmt.rs", "src/token.rs: mechanism filters"]}
{"id": "C26", "title": "Key-pair generation and derivation are all-or-nothing", "statement": "If C_GenerateKeyPair or C_DeriveKey fails, no new object exists that did not exist before the call.", "quantifier": "every failure point, including storage errors, and every template", "why_tests_cant": "Failure points inside the call.", "anchors": ["src/fns/keymgmt.rs: generate_key_pair, derive_key"]}
{"id": "C27", "title": "Stored objects read back unchanged", "statement": "Every attribute value that C_CreateObject, C_CopyObject, C_GenerateKey or C_SetAttributeValue stores on a token object is returned unchanged by later reads and used unchanged by later operations, after any restart, until it is changed or destroyed.", "quantifier": "every object, attribute type and value", "why_tests_cant": "All values of all encodings.", "anchors": ["src/storage/format.rs: store, fetch, update", "src/storage/sqlite.rs: store_object, rows_to_objects, num_to_val, val_to_ulong", "src/attribute.rs"]}
{"id": "C28", "title": "Each storage write is atomic", "statement": "If the process dies or the database reports an error at any point while one object is stored, changed or removed, the object afterwards is entirely the old one or entirely the new one and no other object is affected.", "quantifier": "every crash point in every write", "why_tests_cant": "Crash points.", "anchors": ["src/storage/sqlite.rs: store_obj, remove_by_uid, store_object, delete_object"]}
{"id": "C29", "title": "Ciphertexts are bound to their object and key generation", "statement": "A sensitive attribute's stored ciphertext moved to another object, another attribute's place of another object, or kept across C_InitToken is never accepted as a value: reading fails instead of returning a wrong key.", "quantifier": "every database content an attacker can assemble from ciphertexts the token produced", "why_tests_cant": "All rearrangements of the database.", "anchors": ["src/storage/aci.rs: encrypt_data, decrypt_data, encrypt_value, decrypt_value", "src/storage/format.rs: fetch, store"]}
{"id": "C30", "title": "No secret is stored in the clear", "statement": "In every reachable state the database holds the secret attributes of sensitive key objects only encrypted, and while nobody is logged in the process holds no key that decrypts them.", "quantifier": "every history of calls", "why_tests_cant": "A whole-history invariant over the database content.", "anchors": ["src/storage/format.rs: store, update", "src/storage/aci.rs: encrypt_value, unauth, authenticate", "src/token.rs: logout"]}
{"id": "C31", "title": "C_GetAttributeValue obeys the buffer protocol", "statement": "For each template entry: a NULL buffer gets the exact length; a buffer at least that long gets the exact bytes and length; a shorter one gets CK_UNAVAILABLE_INFORMATION and nothing is written; the call's return code is CKR_OK iff every entry was served, and entries do not influence each other.", "quantifier": "every object, template length and buffer sizes", "why_tests_cant": "All templates.", "anchors": ["src/object/factory.rs: get_object_attributes"]}
{"id": "C32", "title": "List calls obey the two-call protocol", "statement": "C_GetSlotList and C_GetMechanismList with NULL report the exact count; with a buffer of at least that count they write exactly the list, sorted and without repetition; with a smaller one they write nothing and return CKR_BUFFER_TOO_SMALL.", "quantifier": "every slot set, mechanism set and buffer size", "why_tests_cant": "All sets and sizes.", "anchors": ["src/fns/stmgmt.rs: get_slot_list, get_mechanism_list", "src/lib.rs: get_slots_ids", "src/mechanism.rs: Mechanisms::list"]}
{"id": "C33", "title": "Configured mechanism filters are honoured", "statement": "With an allow list exactly the listed and implemented mechanisms are offered and usable; with a deny list exactly the implemented ones not listed; the list reported and the set usable agree.", "quantifier": "every allow/deny list", "why_tests_cant": "All lists.", "anchors": ["src/token.rs: mechanism filters", "src/mechanism.rs: filter_copy", "src/config.rs: mech_list"]}
{"id": "C34", "title": "Slot numbers are unique", "statement": "After configuration from files and any sequence of initialisation arguments, no two slots have the same number, no configured slot changes its number, and the same storage is not opened twice.", "quantifier": "every sequence of configurations", "why_tests_cant": "All sequences of configuration merges.", "anchors": ["src/config.rs: fix_slot_numbers, from_init_args", "src/lib.rs: add_slot", "src/fns/general.rs: initialize"]}
{"id": "C35", "title": "Fixed-width text fields are padded and bounded", "statement": "Token labels, descriptions and identifiers copied to fixed-size fields are the source truncated to the field, padded with blanks, and never write outside it.", "quantifier": "every source string and field size", "why_tests_cant": "All lengths.", "anchors": ["src/misc.rs: copy_sized_string", "src/storage/mod.rs"]}
{"id": "C36", "title": "Attribute values convert losslessly between wire, memory and storage forms", "statement": "Booleans, numbers, strings, dates and arrays accepted from the application convert to the stored form and back to the same value; malformed input is rejected rather than altered.", "quantifier": "every value of every attribute type", "why_tests_cant": "All values.", "anchors": ["src/attribute.rs: from_ck_attr, to_bool, to_ulong, to_date_string, to_ulong_array", "src/pkcs11/mod.rs: vec_to_date_validate, string_to_ck_date"]}
{"id": "C37", "title": "Attribute and mechanism names resolve correctly", "statement": "Every attribute type in the attribute table is found by the lookup, an absent one is reported as absent, and the type information is the one listed.", "quantifier": "every attribute type number", "why_tests_cant": "All 64-bit numbers; the lookup is a binary search that relies on the table being sorted.", "anchors": ["src/attribute.rs: ATTRMAP, attr_id_to_attrtype", "src/pkcs11/mod.rs: name_to_mech"]}
{"id": "C38", "title": "HOTP values are well formed and counters never repeat", "statement": "Each C_Sign with CKM_HOTP returns the decimal value of the configured length for the current counter and moves the counter on, so that no counter value is used for two outputs; C_Verify accepts only the next five values and never accepts the same value of the counter twice.", "quantifier": "every key, counter and history of sign and verify calls", "why_tests_cant": "Histories and interleavings over sessions.", "anchors": ["src/hotp.rs: HOTPOperation", "src/fns/signing.rs: sign, verify"]}
{"id": "C39", "title": "SP 800-108 derivation follows its parameters", "statement": "Counter and feedback mode feed the PRF, for each block, the application's fields in order with the block counter and total length in the requested width and byte order; distinct blocks get distinct counters; each derived key is its own slice of the output and no byte is used for two keys; unsupported parameters are reported as an error.", "quantifier": "every parameter list, key sizes and number of derived keys", "why_tests_cant": "All parameter lists.", "anchors": ["src/native/sp800_108.rs", "src/sp800_108.rs"]}
{"id": "C40", "title": "NSS configuration strings are parsed without failure of the process", "statement": "Parsing any configuration string returns a configuration or CKR_ARGUMENTS_BAD; flags and quoted values are read as written.", "quantifier": "every byte string", "why_tests_cant": "All strings.", "anchors": ["src/storage/nssdb/config.rs: parse_flags, parse_parameter, from_args"]}
{"id": "C41", "title": "FIPS indicator only goes down within an operation", "statement": "Once an operation or object has been marked not approved, no later step of the same operation marks it approved.", "quantifier": "every sequence of indicator updates", "why_tests_cant": "All sequences.", "anchors": ["src/session.rs: set_fips_indicator", "src/lib.rs: init_fips_approval, finalize_fips_approval"]}
{"id": "C42", "title": "Saved operation state restores the same operation", "statement": "C_SetOperationState with bytes from C_GetOperationState of the same process continues the operation as if it had not been interrupted; any other bytes are rejected and change nothing.", "quantifier": "every operation state and byte string", "why_tests_cant": "All states.", "anchors": ["src/session.rs: state_size, state_save, state_restore", "src/fns/sessmgmt.rs"]}
{"id": "C43", "title": "Message operations follow the begin/next protocol", "statement": "C_EncryptMessageNext/C_DecryptMessageNext are accepted only between a Begin and the Next carrying CKF_END_OF_MESSAGE; one-shot messages and Begin are refused in between; Final is refused while a message is open.", "quantifier": "every history of message calls", "why_tests_cant": "All histories.", "anchors": ["src/fns/encryption.rs: encrypt_message_begin, encrypt_message_next, message_encrypt_final"]}
{"id": "C44", "title": "Duplicate handling never destroys unrelated objects", "statement": "With de-duplication configured, creating an object changes at most one existing object, of the same class and matching the identifying attributes, and only for the configured classes; without it, creation never changes an existing object.", "quantifier": "every token content and new object", "why_tests_cant": "All contents.", "anchors": ["src/token.rs: check_dedup, is_duplicate, create_object", "src/config.rs: ObjectsDedup"]}
{"id": "C45", "title": "Derivation does not lower the protection of the base key", "statement": "A key derived by concatenation, xor or extraction (which contain the base key's bits) from a sensitive key is sensitive, and from an unextractable key is unextractable, whatever the template says; so C_DeriveKey followed by C_GetAttributeValue never reveals a protected base key.", "quantifier": "every base key, template and simple derivation mechanism", "why_tests_cant": "All templates and mechanisms.", "anchors": ["src/native/simplekdf.rs: SimpleKDFOperation::derive", "src/object/key.rs: internal_key_derive"]}
{"id": "C46", "title": "Simple derivations compute the specified bits", "statement": "CKM_CONCATENATE_*, CKM_XOR_BASE_AND_DATA and CKM_EXTRACT_KEY_FROM_KEY store exactly the bytes PKCS#11 defines: the leading bytes of the concatenation, the leading bytes of the xor, or the bits from the given bit offset on with wrap-around, of the requested length.", "quantifier": "every base key value, parameter, offset and length", "why_tests_cant": "All bit offsets and lengths; the repository's test uses one offset.", "anchors": ["src/native/simplekdf.rs: SimpleKDFOperation::derive"]}
{"id": "C47", "title": "Calls on different threads do not deadlock", "statement": "No interleaving of API calls made from different threads reaches a state in which a set of calls wait for each other's locks for ever.", "quantifier": "every number of threads, every sequence of calls on each, every schedule", "why_tests_cant": "Deadlocks show only under rare schedules; a test run cannot enumerate them.", "anchors": ["src/lib.rs: State::get_session, get_token_from_session_mut", "src/slot.rs: get_token_mut, get_session_mut, change_session_states, invalidate_session_states", "src/fns/sessmgmt.rs: login, logout", "src/fns/objmgmt.rs: create_object"]}
{"id": "C48", "title": "Secret keys have admissible sizes and truthful lengths", "statement": "Every AES key that C_CreateObject, C_UnwrapKey, C_DeriveKey or C_GenerateKey brings into being has 16, 24 or 32 bytes, every HMAC-typed key exactly its digest size, every HOTP key 6 to 8 digits, an 8-byte counter and CKM_HOTP as only mechanism; and whenever CKA_VALUE_LEN is present it is the length of CKA_VALUE.", "quantifier": "every template and key value", "why_tests_cant": "Templates combine arbitrarily; the length check is repeated in several code paths and must hold in all of them.", "anchors": ["src/aes.rs: check_key_len, AesKeyFactory::create, import_from_wrapped, set_key, key_derive, generate_key", "src/object/key.rs: set_key, set_key_len, ensure_ulong, GenericSecretKeyFactory::create", "src/hotp.rs: validate_object"]}
{"id": "C49", "title": "C_SetAttributeValue changes only what it names", "statement": "C_SetAttributeValue never accepts CKA_TOKEN, CKA_PRIVATE, CKA_MODIFIABLE or CKA_UNIQUE_ID, nor CKA_COPYABLE true, and a call containing one of them changes nothing. A successful or failed call changes no other object, and no attribute of the object that the template does not name. A failed call changes nothing.", "quantifier": "every history of calls, every session, object, template and environment (storage faults included), every later C_GetAttributeValue", "why_tests_cant": "The claim is about every other object and attribute, every object class, and every combination of template entries and faults; tests try a few templates on a few classes.", "anchors": ["src/token.rs: set_object_attrs", "src/object/factory.rs: set_object_attributes, check_set_attributes", "src/storage/format.rs: update", "src/storage/sqlite.rs: store_object, fetch_by_uid", "src/fns/objmgmt.rs: set_attribute_value"]}
{"id": "C50", "title": "HMAC is the same function however the data is supplied", "statement": "For every hash, key and message, signing with an HMAC mechanism returns the RFC 2104 value (truncated to the configured length) of the concatenated data, however the data is cut into C_SignUpdate calls or if it is given in one C_Sign; verification accepts exactly that value; an operation that has ended accepts and yields nothing more.", "quantifier": "all hashes with outputs of a fixed size not above the block size, all keys of any length, all messages and all ways of cutting them, all output lengths up to the hash size, all signatures", "why_tests_cant": "Test vectors fix a few keys, messages and splits; the claim is about every key length around the block size and every split.", "anchors": ["src/native/hmac.rs: HMACOperation::init, begin, update, finalize, reinit, mac, verify, verify_final", "src/hmac.rs: check_and_fetch_param"]}
{"id": "C51", "title": "FIPS approval follows the rules for keys and mechanisms", "statement": "An operation is reported approved only when the FIPS rules list its mechanism for that operation and list the type and size of the key for it; a key is marked approved when it is made only when the rules list the mechanism, the type and size of the key, and every use the key allows.", "quantifier": "every mechanism, operation, key object with any attributes, every table row", "why_tests_cant": "The tables have about a hundred rows with sizes and flags; tests try a few keys and cannot show that no other key passes.", "anchors": ["src/fips/indicators.rs: is_approved, is_key_approved, check_key, size_check, add_missing_validation_flag, FIPS_CHECKS"]}
{"id": "C52", "title": "Encryption with AES in ECB, CBC and CBC_PAD does not depend on how the data is cut", "statement": "However the data is cut into C_EncryptUpdate calls, and whatever buffers the calls get (too small ones and NULL included), the bytes written by all calls together are the block by block encryption of the data accepted, with PKCS #7 padding for CBC_PAD; C_EncryptFinal refuses a total that is no multiple of 16 in ECB and CBC; C_Encrypt gives the same bytes; a length query gives the number of bytes the call then writes.", "quantifier": "all keys, IVs, data, all sequences of update calls with any buffers, of any length", "why_tests_cant": "Test vectors use a few splits; errors of buffering show at splits around the block boundary after particular earlier calls and refusals.", "anchors": ["src/ossl/aes.rs: encrypt, encrypt_update, encrypt_final, encryption_len", "src/fns/encryption.rs: encrypt, encrypt_update, encrypt_final"]}
{"id": "C53", "title": "Decryption with AES in ECB, CBC and CBC_PAD returns the data however the ciphertext is cut", "statement": "Decrypting what encryption gave returns the data, however the ciphertext is cut into C_DecryptUpdate calls and whatever buffers the calls get; with CBC_PAD nothing but the ciphertext's decryption without its padding is ever given out; the length C_DecryptFinal asks for is enough.", "quantifier": "all keys, IVs, data, all sequences of update calls with any buffers", "why_tests_cant": "The failures need a small first part or the library's habit of holding one block back; test splits are regular.", "anchors": ["src/ossl/aes.rs: decrypt, decrypt_update, decrypt_final, decryption_len"]}
{"id": "C54", "title": "AES in counter mode never uses a counter block twice and leaves the nonce alone", "statement": "With CKM_AES_CTR the bytes written are the data combined with the encryptions of the counter block counted up by one per block, however the data is cut; decryption in other parts returns the data; the bits of the counter block outside the counter stay the same for every block of the operation; all blocks the counter has left can be used.", "quantifier": "all keys, counter blocks, counter widths, data, sequences of update calls", "why_tests_cant": "The counter limit shows only near its end, for each of 128 widths and each start value.", "anchors": ["src/ossl/aes.rs: AesParams init_params (CKM_AES_CTR), encrypt_update, decrypt_update, encrypt_final, decrypt_final"]}
{"id": "C55", "title": "Generated IVs never repeat within a message encryption operation", "statement": "Between C_MessageEncryptInit and C_MessageEncryptFinal no two messages are encrypted under the same IV when the token generates IVs with a counter, and the fixed bits are those of the application.", "quantifier": "all IV lengths, fixed bits, buffer contents, any number of messages", "why_tests_cant": "Repetition shows after up to 2^64 messages or for particular widths; tests encrypt a handful.", "anchors": ["src/ossl/aes.rs: AesIVData, generate_iv, init_msg_params, msg_encrypt_new"]}
{"id": "C56", "title": "AES-MAC is the CBC-MAC of the message however it is cut", "statement": "CKM_AES_MAC and CKM_AES_MAC_GENERAL return the first bytes of the last block of the CBC encryption under the zero IV of the message filled up with zeros, however the message is cut into C_SignUpdate calls and with length queries or short buffers in between; verification accepts exactly this MAC, and never for every message.", "quantifier": "all keys, messages, ways of cutting them, output lengths, signatures", "why_tests_cant": "Each test has one split and one forged signature; the claim is about all.", "anchors": ["src/ossl/aes.rs: AesMacOperation init, begin, update, finalize, sign, verify, signature_len"]}
{"id": "C57", "title": "AES-GCM encrypts the data and accepts only what it encrypted", "statement": "The bytes written by all encryption calls are the data combined with the key stream of the IV, then the tag over additional data and ciphertext, however the data is cut and whatever calls were refused for lack of room; decryption, in one call or in parts, succeeds for exactly these bytes and returns the data.", "quantifier": "all keys, IVs, additional data, data, tag lengths, sequences of update calls with any buffers", "why_tests_cant": "The parts kept back for the tag interact with the sizes of all parts; tests use one or two cuts.", "anchors": ["src/ossl/aes.rs: encrypt_update, encrypt_final, decrypt_update, decrypt_final (CKM_AES_GCM)"]}
{"id": "C58", "title": "AES-CCM encrypts the announced data and accepts only what it encrypted", "statement": "Encryption of exactly the announced number of bytes, in whatever parts, gives ciphertext and tag, other amounts are refused; decryption succeeds for exactly these bytes and returns the data.", "quantifier": "all keys, nonces, additional data, data, tag lengths, sequences of update calls with any buffers", "why_tests_cant": "The parts are buffered up to the announced length; wrong amounts after it, or none at all, are not in test vectors.", "anchors": ["src/ossl/aes.rs: encrypt_update, encrypt_final, decrypt_update, decrypt_final (CKM_AES_CCM)"]}
{"id": "C59", "title": "An AES call refused for lack of room can be made again", "statement": "A C_Encrypt, C_EncryptUpdate, C_EncryptFinal, C_Decrypt, C_DecryptUpdate or C_DecryptFinal that answers CKR_BUFFER_TOO_SMALL has no effect: made again with another buffer it gives what it would have given the first time; a buffer of the length asked for is enough, a longer one does no harm.", "quantifier": "all AES modes, all states of an operation, all data and buffer sizes", "why_tests_cant": "Needs every pair of buffer sizes in every state of an operation; tests retry once, on one mode.", "anchors": ["src/ossl/aes.rs: encrypt, encrypt_update, encrypt_final, decrypt, decrypt_update, decrypt_final", "src/fns/encryption.rs"]}
{"id": "C60", "title": "TLS 1.2 key derivation gives the keys of the RFC, protected like the master secret", "statement": "The master secret, the extended master secret, CKM_TLS_KDF output and the connection keys and IVs are exactly the bytes RFC 5246 and RFC 7627 define; the connection keys are as sensitive and as extractable as the master secret; an operation derives once.", "quantifier": "all hash functions, secrets, randoms, labels, sizes and templates", "why_tests_cant": "Test vectors fix one cipher suite; the cuts of the key block and the pseudo-random function depend on all sizes, and protection must hold for every template.", "anchors": ["src/native/tlskdf.rs: TLSPRF, TLSKDFOperation"]}
{"id": "C61", "title": "The TLS MAC authenticates the whole message", "statement": "CKM_TLS_MAC and CKM_TLS12_MAC give PRF(secret, finished label + data) of the length asked for, for any parts; verification accepts exactly this value; after the end the operation is over.", "quantifier": "all secrets, messages, splits into parts, lengths, candidate signatures", "why_tests_cant": "Needs all splits and all wrong signatures; tests sign one message.", "anchors": ["src/native/tlskdf.rs: TLSMACOperation"]}
{"id": "C62", "title": "SSH key derivation gives the bytes of RFC 4253 and never a key as data", "statement": "The derived object holds the RFC 4253 section 7.2 bytes of the length in the template; letters A and B give a data object, C to F a secret key, whose bytes cannot be had as data; an operation derives once.", "quantifier": "all hash functions, shared secrets, exchange hashes, session ids, letters and templates", "why_tests_cant": "Collisions of the hash input between letters come from particular exchange hashes and session ids; tests use one vector per letter.", "anchors": ["src/native/sshkdf.rs: SSHKDFOperation", "src/misc.rs: common_derive_data_object, common_derive_key_object"]}
{"id": "C63", "title": "Password based keys are those of PKCS#5", "statement": "CKM_PKCS5_PBKD2 gives a key whose value is PBKDF2 of password, salt, iteration count and length with the chosen pseudo-random function; the key carries the marks of a generated key; parameters outside the standard are refused.", "quantifier": "all hash functions, passwords, salts, iteration counts, lengths and templates", "why_tests_cant": "Test vectors fix a few counts and lengths; the iteration and block loops must be right for all, and odd counts such as 0 are not tried.", "anchors": ["src/pbkdf2.rs: PBKDF2Mechanism, generate_key", "src/native/pbkdf2.rs: pbkdf2_derive"]}
{"id": "C64", "title": "A key derived by hashing is the start of the hash of the base key", "statement": "CKM_SHA*_KEY_DERIVATION gives one key whose value is the beginning of the digest of the base key's value; the key is at least as protected as PKCS#11 says from the base key's attributes; an operation derives once; no template makes the call panic.", "quantifier": "all hash functions, base keys and templates", "why_tests_cant": "Key types with a size of their own interact with the digest's length in combinations that tests do not list.", "anchors": ["src/hash.rs: HashKDFOperation, derive", "src/object/factory.rs: derive_key_from_template"]}
{"id": "C65", "title": "HKDF gives the bytes of RFC 5869 as the kind of object asked for", "statement": "CKM_HKDF_DERIVE and CKM_HKDF_DATA give HKDF-Extract, HKDF-Expand or both of the base key with the salt and info of the parameter, of the length in the template; the first gives a secret key with an honest history whose bytes are not to be had as data, the second data; base and salt keys must be made for derivation; an operation derives once.", "quantifier": "all hash functions, base and salt objects, parameters and templates", "why_tests_cant": "The combinations of flags, salt types, template attributes and base objects are unbounded; tests use vectors with well formed templates.", "anchors": ["src/ossl/hkdf.rs: HKDFOperation::new, verify_key, derive", "src/misc.rs: common_derive_key_object, common_derive_data_object", "src/fns/keymgmt.rs: derive_key"]}
{"id": "C66", "title": "Only the right PIN opens an NSS database", "statement": "With an NSS database as storage, a login of the user succeeds exactly with the PIN that was set, whatever logins, logouts and refused PINs came before, and a refused PIN leaves the state of the user alone.", "quantifier": "all cryptographic libraries with the usual laws, databases, PINs, and sequences of logins and logouts", "why_tests_cant": "The answer depends on keys cached by earlier calls of the process; tests log in once with the right PIN and do not try every PIN after every history.", "anchors": ["src/storage/nssdb/mod.rs: NSSStorage::auth_user, unauth_user, set_user_pin", "src/storage/nssdb/ci.rs: KeysWithCaching, decrypt_data, derive_key_internal"]}
{"id": "C67", "title": "A PIN change keeps the objects of an NSS database", "statement": "After C_SetPIN or C_InitPIN on an NSS database every object can still be read by a user who logs in with the new PIN, and the user who changed the PIN stays logged in; a refused change changes nothing.", "quantifier": "all databases, objects, PINs, random choices", "why_tests_cant": "Whether an object survives depends on the key of each stored secret; tests do not read older objects back under a new PIN.", "anchors": ["src/storage/nssdb/mod.rs: NSSStorage::set_user_pin, fetch", "src/storage/nssdb/ci.rs: decrypt_data"]}
{"id": "C68", "title": "Objects stored in an NSS database are read back", "statement": "With an NSS database as storage, an object that was stored is read back with the same attributes, in the same process and after a restart and login with the PIN, secrets included.", "quantifier": "all cryptographic libraries with the usual laws, databases, objects, random choices, templates asked for", "why_tests_cant": "Each attribute passes through an encoding, encryption and a signature chosen by tables; tests store a few objects with a few attributes.", "anchors": ["src/storage/nssdb/mod.rs: NSSStorage::store, fetch, rows_to_object, store_object, num_to_val", "src/storage/nssdb/ci.rs: encrypt_data, decrypt_data, make_signature, check_signature", "src/storage/nssdb/attrs.rs: ALL_ATTRIBUTES"]}
{"id": "C69", "title": "Secrets in an NSS database are only in ciphertexts, and altered attributes are noticed", "statement": "What is written for a private or secret key depends on its secret values only through their ciphertexts; an object is read by a logged-in user only if its protected attributes carry a signature, for that object and type, made with the user's key; alterations of the file are noticed.", "quantifier": "all ciphers, databases, objects and contents of the file", "why_tests_cant": "The claim is about two runs with different secrets and about every file an attacker may write.", "anchors": ["src/storage/nssdb/mod.rs: NSSStorage::store, fetch", "src/storage/nssdb/ci.rs: encrypt_data, check_signature, hmac_verify"]}
{"id": "C70", "title": "A search of an NSS database finds exactly the matching objects", "statement": "C_FindObjects on an NSS database gives the handles of exactly those objects whose attributes have the values of the template, whatever the order of the template.", "quantifier": "all databases written by the token, templates, handle tables", "why_tests_cant": "The query leaves out tables and encodes values; which rows are missed depends on the whole template and the whole database.", "anchors": ["src/storage/nssdb/mod.rs: NSSStorage::search, prepare_search, search_databases"]}
{"id": "C71", "title": "A destroyed object of an NSS database is gone", "statement": "After C_DestroyObject returned CKR_OK the handle is refused and the object is neither found nor read again; a refused call changes nothing.", "quantifier": "all databases, handles and later searches", "why_tests_cant": "That nothing later brings the object back is a statement about all later calls.", "anchors": ["src/token.rs: Token::destroy_object", "src/storage/nssdb/mod.rs: NSSStorage::remove"]}
{"id": "C72", "title": "Without a login nothing private is found or read in an NSS database", "statement": "While no user is logged in a search gives no handle of a private object, and no attribute of a private token object is read through a handle that is known.", "quantifier": "all databases, templates and handles", "why_tests_cant": "It must hold for every template, also ones that ask for CKA_PRIVATE or leave everything out, and every content of the cache of keys.", "anchors": ["src/token.rs: Token::search_objects, get_object_attrs", "src/storage/nssdb/mod.rs: NSSStorage::search, fetch"]}
{"id": "C73", "title": "Calls on an NSS database touch only the object they name", "statement": "Storing an object in an NSS database, or changing its attributes, leaves every other object, the metadata that is not about this object, and every handle as they were; a call that fails changes nothing in the database; over every sequence of calls the handles are one-to-one and name existing objects.", "quantifier": "all cryptographic libraries, databases, objects, templates, failures and sequences of calls", "why_tests_cant": "It is about every other row and every sequence; a test looks at the rows it wrote.", "anchors": ["src/token.rs: Token::insert_object, set_object_attrs", "src/storage/nssdb/mod.rs: NSSStorage::store, update, store_object, store_attributes"]}
{"id": "C74", "title": "What C_SetAttributeValue wrote to an NSS database is read back", "statement": "After C_SetAttributeValue on an object of an NSS database returned CKR_OK the object is still the same object, is found as before, the attributes of the template have the new values and the others their old ones.", "quantifier": "all databases, objects, templates and random choices", "why_tests_cant": "Which column a value goes to, and whether it is encrypted, depends on the attribute, the table and the order and repetition in the template.", "anchors": ["src/token.rs: Token::set_object_attrs", "src/storage/nssdb/mod.rs: NSSStorage::update, store_attributes"]}
{"id": "C75", "title": "An RSA private key that is wrapped and unwrapped is the same key", "statement": "When C_WrapKey gave bytes for an RSA private key and C_UnwrapKey makes an object of what was wrapped, the eight numbers of the new object are those of the key, whatever the template and the zero padding added by the wrapping; its CKA_PUBLIC_KEY_INFO encodes exactly its public numbers; an acceptable template without key components makes the import succeed; malformed data is refused.", "quantifier": "all keys, templates, paddings, wrapping mechanisms that give back what was wrapped (data below 4 GiB)", "why_tests_cant": "Leading zeros, high bits and length forms of DER change the encoding of single keys out of very many.", "anchors": ["src/rsa.rs: RSAPrivFactory::export_for_wrapping, import_from_wrapped, rsa_check_public_key_info", "src/kasn1/mod.rs: DerEncBigUint, PrivateKeyInfo", "src/fns/keymgmt.rs: wrap_key, unwrap_key"]}
{"id": "C76", "title": "An elliptic curve private key that is wrapped and unwrapped is the same key", "statement": "The private value comes back byte for byte, the curve and the key type are the same, a factory of another key type refuses the data, and the import succeeds for an acceptable template; the encoding is that of the standards.", "quantifier": "all seven curves, key values, templates and paddings", "why_tests_cant": "A round trip in the same program does not show a deviation from the standard encoding, and tests use a few keys.", "anchors": ["src/ec/mod.rs: export_for_wrapping, import_from_wrapped", "src/kasn1/pkcs.rs: ECPrivateKey"]}
{"id": "C77", "title": "ECDSA signatures keep their numbers and are accepted again", "statement": "The conversions between the two forms of an ECDSA signature are inverse to each other and refuse numbers that do not fit; C_Verify accepts exactly the signatures of the right length whose two numbers OpenSSL accepts; what C_Sign made is accepted; data in parts gives the same as data at once; a finished operation refuses every call.", "quantifier": "all key sizes, data, signatures, ways to cut the data in parts", "why_tests_cant": "Only one signature in 256 has a short number; only one in 65536 a shorter one.", "anchors": ["src/ossl/ecdsa.rs: slice_to_sig_half, ossl_to_pkcs11_signature, pkcs11_to_ossl_signature, EcdsaOperation"]}
{"id": "C78", "title": "RSA operations undo each other, respect buffers and limits, and end", "statement": "What C_Encrypt or C_WrapKey wrote with an RSA public key is turned back by the private key; what C_Sign made C_Verify accepts; only signatures OpenSSL accepted for exactly these data are accepted; data longer than the padding allows is refused; asking for a length or giving a buffer that is too small leaves the operation as it was, and a successful call wrote exactly the bytes it reports; data in parts gives the same as data at once; a finished operation refuses every call.", "quantifier": "all mechanisms, parameters, modulus sizes, data, buffer sizes, ways to cut the data in parts", "why_tests_cant": "Tests use a few key sizes, hashes and buffers; the limits depend on all of them together.", "anchors": ["src/ossl/rsa.rs: parse_sig_params, parse_enc_params, RsaPKCSOperation", "src/fns/encryption.rs: encrypt, decrypt"]}
{"id": "C79", "title": "ML-DSA and SLH-DSA sign exactly the message of the standards", "statement": "With CKM_ML_DSA, CKM_HASH_ML_DSA, CKM_HASH_ML_DSA_SHA… and their SLH-DSA counterparts, C_Sign makes the signature of FIPS 204 or FIPS 205 over the M' for the mechanism, the context of the parameter and the data; C_Verify and C_VerifySignature accept exactly what the standards accept for that M'. Data in parts gives the same as data at once. Different data, contexts, hashes and the two modes have different M'. A hash made outside and signed with CKM_HASH_ML_DSA has the same signature as the mechanism that hashes. Contexts of more than 255 bytes are refused. A wrong signature is reported as CKR_SIGNATURE_INVALID.", "quantifier": "all parameter sets, mechanisms, hashes, contexts, ways of hedging, data, signatures, ways to cut the data in parts, whether OpenSSL takes parts or not", "why_tests_cant": "Tests check a few vectors; that no two of all contexts, hashes and messages share an M' and that parts never matter is about all of them.", "anchors": ["src/ossl/mldsa.rs: MlDsaParams, MlDsaOperation", "src/ossl/slhdsa.rs: SlhDsaParams, SlhDsaOperation", "ossl/src/signature.rs: OsslSignature", "src/error.rs: From<ossl::Error>"]}
{"id": "C80", "title": "EdDSA signs the data with the variant the parameter asks for", "statement": "CKM_EDDSA runs the variant of RFC 8032 for the curve and the parameter (Ed25519, Ed25519ctx, Ed25519ph, Ed448, Ed448ph) with its context over exactly the data; a verification answers CKR_OK when that variant accepts the signature and CKR_SIGNATURE_INVALID otherwise, whether the signature is an argument or was given to C_VerifySignatureInit. Data in parts gives the same as data at once. A call that fails ends the operation, and no signature covers only some of the parts handed over.", "quantifier": "both curves, all parameters, contexts, data, signatures, ways to cut the data in parts", "why_tests_cant": "Tests use the vectors of RFC 8032 with little data; parts, refused parts and wrong signatures are not enumerable.", "anchors": ["src/ossl/eddsa.rs: parse_params, EddsaOperation", "ossl/src/signature.rs: OsslSignature"]}
{"id": "C81", "title": "Key agreement: both parties get the same key, and it is the one of the standard", "statement": "C_DeriveKey with CKM_ECDH1_DERIVE or CKM_ECDH1_COFACTOR_DERIVE makes one secret key whose CKA_VALUE is the end of the shared secret (CKD_NULL) or the output of X9.63 / SP 800-56C over the secret and the shared data with the digest the KDF type names; its length is CKA_VALUE_LEN of the template or the usual one for the key type, and CKA_VALUE_LEN tells it. Two parties with the same template and parameters get the same key; the public point may be raw or an OCTET STRING. CKM_DH_PKCS_DERIVE gives the end of the PKCS#3 secret. Parameters that do not fit are refused and an operation derives once.", "quantifier": "all keys, public values, KDF types, shared data, templates, lengths", "why_tests_cant": "A leading zero byte of the secret occurs once in 256 agreements; tests use fixed vectors and a few lengths.", "anchors": ["src/ossl/ecdh.rs: ECDHOperation", "src/ossl/ffdh.rs: FFDHOperation", "src/ecdh.rs", "src/ffdh.rs", "ossl/src/derive.rs: EcdhDerive, FfdhDerive"]}
{"id": "C82", "title": "ML-KEM: encapsulation and decapsulation give the same key", "statement": "After C_EncapsulateKey with an ML-KEM public key on one token and C_DecapsulateKey of the ciphertext with the matching private key on the same or another token, with the same template for a secret key, the two new keys, as storage gives them back, have the same CKA_VALUE: the shared secret for the parameter set, value and seed of the ML-KEM keys, cut to CKA_VALUE_LEN for an AES key whose template has it. The ciphertext has the length of FIPS 203 for the parameter set, a call without a buffer tells this length, a smaller buffer gives CKR_BUFFER_TOO_SMALL, any buffer it fits does the same; neither of these, nor a ciphertext that cannot be decapsulated, changes the token.", "quantifier": "all histories of both tokens, ML-KEM keys, parameter sets, templates for secret keys, buffer lengths, ciphertexts", "why_tests_cant": "Tests use one key pair per parameter set with a large buffer in one session; the agreement has to hold for session and token objects, encrypted storage and every template.", "anchors": ["src/mlkem.rs: MlKemMechanism", "src/ossl/mlkem.rs: encapsulate, decapsulate, mlkem_object_to_pkey", "src/fns/keymgmt.rs: encapsulate_key, decapsulate_key", "src/aes.rs: import_from_wrapped", "src/object/key.rs: default_import_from_wrapped"]}
{"id": "C83", "title": "An imported ML-KEM or ML-DSA key fits its parameter set, its seed and its public key", "statement": "When C_CreateObject accepts a template for an ML-KEM or ML-DSA key, the object as storage gives it back has the parameter set of the template, a CKA_VALUE of exactly the length FIPS 203 or FIPS 204 fixes for it (the value of the template; for a private key with CKA_SEED also what the seed, of the right length, expands to) and a CKA_PUBLIC_KEY_INFO that is the DER SubjectPublicKeyInfo of the public key with the object identifier of the parameter set. CKM_PUB_KEY_FROM_PRIV_KEY on a private key makes exactly one public key object, of the same parameter set, with the public key that belongs to the private key. Where the template is silent, this public key may verify, encrypt, wrap, encapsulate or derive exactly as the private key may sign, decrypt, unwrap, decapsulate or derive, has its CKA_ID and CKA_SUBJECT, and is a public session object that can be changed and copied but not destroyed.", "quantifier": "all histories, sessions, templates, parameter sets, key values and seeds, storage behaviour", "why_tests_cant": "Tests import well-formed keys of one or two sizes; the length, seed and encoding checks have to hold for every template and combination of optional attributes.", "anchors": ["src/mlkem.rs: MlKemPubFactory::create, MlKemPrivFactory::create, mlkem_verify_private_key, mlkem_public_key_info", "src/mldsa.rs: MlDsaPubFactory::create, MlDsaPrivFactory::create, mldsa_public_key_info", "src/ossl/common.rs: extract_public_key", "src/native/simplekdf.rs: PubFromPrivOperation, PUBKEY_ATTR_DEFAULTS"]}
{"id": "C84", "title": "An HMAC or a digest depends on the key and the parts given, whatever happens around it", "statement": "Once C_SignInit, C_VerifyInit, C_VerifySignatureInit or C_DigestInit with an HMAC or digest mechanism has succeeded on a session, the final call answers with, or accepts exactly, the HMAC (RFC 2104, cut to the length in the parameter) under the key, or the digest, of the parts given to that operation since, put together; whatever calls were made in between by this or other sessions, queries for lengths and short buffers included. The one-call functions do the same for their data if no part came before. The parameter accepted is exactly: none for the plain mechanism, a length of 1 up to the size of the hash for the GENERAL one.", "quantifier": "all histories before the start, all sequences of calls of all sessions between start and end, all hashes of the token, keys, parameters, parts, signatures, buffers", "why_tests_cant": "Tests run one operation at a time on one session; the claim is about every interleaving with other operations, sessions, logins and dual-function calls.", "anchors": ["src/hmac.rs: check_and_fetch_param, HashMechanism::mac_new, verify_new", "src/native/hmac.rs: HMACOperation, Sign, Verify, VerifySignature", "src/ossl/hash.rs: HashOperation", "src/hash.rs: HASH_MECH_SET", "src/fns/signing.rs, src/fns/digest.rs, src/fns/dualcrypto.rs", "src/session.rs: get_operation, set_operation"]}
{"id": "C85", "title": "Operations do not interfere with each other", "statement": "After an encryption, decryption, digest, signature or verification has been started on a session, each of its calls answers exactly as if only the calls of that operation had been made since, whatever other calls were made in between on the same session, other sessions and other slots (searches, object and key management, logins, other operations). Started with the same mechanism, parameter, key and random input on any other session or token, and given the same calls, it answers the same. Not counted as other calls: starting the operation again, cancelling it, dual-function calls that include it, and starting a signature or decryption on the same session (their demand for a login is shared, C22).", "quantifier": "all mechanisms that do not change a stored object (all but HOTP), all histories, all traces of calls in between, all calls and inputs; operations other than message-based ones", "why_tests_cant": "Tests run operations one after the other; the claim is about every interleaving of every set of calls and is independent of the mechanism.", "anchors": ["src/session.rs: Session::get_operation, set_operation, cancel_operation, check_op", "src/fns/signing.rs, src/fns/encryption.rs, src/fns/digest.rs, src/fns/dualcrypto.rs, src/fns/sessmgmt.rs: session_cancel", "src/lib.rs: State::get_session, get_session_mut"]}
{"id": "C86", "title": "AES encryption and decryption through the calls of a session", "statement": "After a successful C_EncryptInit or C_DecryptInit with an AES mechanism (ECB, CBC, CBC with padding, CTR, CTS, GCM, CCM), whatever else is called on the same and other sessions, the calls of this operation and their answers are those of one AES operation with the value of the key object and the parameter given: what is written is the encryption (decryption) of the data accepted, and what was encrypted on one session is decrypted on any session of any token that has the key.", "quantifier": "all keys, parameters, data, ways to cut it into parts, buffer sizes and queries, all histories and all traces of other calls in between", "why_tests_cant": "Tests decrypt what they encrypted in one or two ways of cutting, without other activity; the claim covers all cuts, buffers and interleavings.", "anchors": ["src/fns/encryption.rs: encrypt_init, encrypt, encrypt_update, encrypt_final, decrypt_init, decrypt, decrypt_update, decrypt_final", "src/aes.rs: encryption_new, decryption_new, check_key_len", "src/ossl/aes.rs: AesOperation::encrypt_new, decrypt_new, init_params, object_to_raw_key, encrypt_update, encrypt_final, decrypt_update, decrypt_final", "src/session.rs: Session::get_operation"]}
{"id": "C87", "title": "AES-MAC and CMAC through the calls of a session", "statement": "After a successful C_SignInit, C_VerifyInit or C_VerifySignatureInit with CKM_AES_MAC, CKM_AES_MAC_GENERAL, CKM_AES_CMAC or CKM_AES_CMAC_GENERAL, whatever else is called on the same and other sessions: what C_Sign gives out is the MAC of its data and what C_SignFinal gives out is the MAC of the parts accepted, in order, with the value of the key object and of the length asked for; with a large enough buffer it is given out (for AES-MAC: if there was a part); C_Verify, C_VerifyFinal, C_VerifySignature and C_VerifySignatureFinal succeed exactly if the signature is this MAC.", "quantifier": "all keys, lengths, data, ways to cut it into parts, buffers and queries, all histories and all traces of other calls in between", "why_tests_cant": "Tests sign and verify a few messages without other activity and try one wrong signature; the claim covers all cuts, signatures and interleavings.", "anchors": ["src/fns/signing.rs: sign_init, sign, sign_update, sign_final, verify_init, verify, verify_update, verify_final, verify_signature_init, verify_signature, verify_signature_update, verify_signature_final", "src/aes.rs: sign_new, verify_new, verify_signature_new", "src/ossl/aes.rs: AesMacOperation, AesCmacOperation", "src/session.rs: Session::get_operation"]}
{"id": "C88", "title": "EdDSA through the calls of a session", "statement": "After a successful C_SignInit, C_VerifyInit or C_VerifySignatureInit with CKM_EDDSA, whatever else is called on the same and other sessions: what C_Sign or C_SignFinal gives out is the signature, by the variant of RFC 8032 that curve and parameter ask for and with its context, of the data of C_Sign or of the parts accepted, in order; it is given out when the buffer is large enough and the data are at most 1 MiB; a verification succeeds exactly if the algorithm accepts the signature for the message; a signature made through one session with the private key is accepted through any other, of this or another token, with the public key.", "quantifier": "all keys, parameters, contexts, data, ways to cut it into parts, buffers and queries, all histories and all traces of other calls in between", "why_tests_cant": "Tests sign and verify a few messages without other activity; the claim covers all cuts, signatures, contexts and interleavings.", "anchors": ["src/fns/signing.rs: sign_init, sign, sign_update, sign_final, verify_init, verify, verify_update, verify_final, verify_signature_init, verify_signature, verify_signature_update, verify_signature_final", "src/ec/eddsa.rs: EddsaMechanism", "src/ossl/eddsa.rs: EddsaOperation, eddsa_object_to_pkey, parse_params", "ossl/src/signature.rs: OsslSignature", "src/session.rs: Session::get_operation"]}
{"id": "C89", "title": "ECDSA through the calls of a session", "statement": "After a successful C_SignInit, C_VerifyInit or C_VerifySignatureInit with CKM_ECDSA or one of its variants with a hash, whatever else is called on the same and other sessions: what C_Sign or C_SignFinal gives out is the pair of numbers OpenSSL computed for the data of C_Sign or for the parts accepted, in order, each number in the fixed width of the curve; it is given out when the buffer is large enough; a verification answers CKR_OK exactly if OpenSSL accepts the two numbers for the message, and CKR_SIGNATURE_INVALID otherwise; a signature made through one session with the private key is accepted through any other, of this or another token, with the public key; CKM_ECDSA takes no parts, and after an attempt gives neither signature nor verdict.", "quantifier": "all keys, curves up to 992 bits, data, ways to cut it into parts, signatures, buffers and queries, all histories and all traces of other calls in between", "why_tests_cant": "Tests sign and verify a few messages without other activity; leading zeros in r or s, cuts and interleavings are met by chance only.", "anchors": ["src/fns/signing.rs: sign_init, sign, sign_update, sign_final, verify_init, verify, verify_update, verify_final, verify_signature_init, verify_signature, verify_signature_update, verify_signature_final", "src/ec/ecdsa.rs: EcdsaMechanism, register", "src/ossl/ecdsa.rs: EcdsaOperation, ecc_object_to_pkey, ossl_to_pkcs11_signature, pkcs11_to_ossl_signature", "src/error.rs: From<ossl::Error>", "ossl/src/signature.rs: OsslSignature", "src/session.rs: Session::get_operation"]}
{"id": "C90", "title": "RSA signatures through the calls of a session", "statement": "After a successful C_SignInit, C_VerifyInit or C_VerifySignatureInit with CKM_RSA_X_509, CKM_RSA_PKCS, CKM_RSA_PKCS_PSS or a PKCS or PSS mechanism with a hash, whatever else is called on the same and other sessions: what C_Sign or C_SignFinal gives out is OpenSSL's signature of the data of C_Sign or of the parts accepted, in order, and has the length of the modulus; it is given out when the buffer is large enough and the data fit the padding, and data that do not fit are answered with CKR_DATA_LEN_RANGE; a verification answers CKR_OK exactly if OpenSSL accepts the signature for the message, and CKR_SIGNATURE_INVALID otherwise; a signature made through one session with the private key is accepted through any other, of this or another token, with the public key; the mechanisms without a hash take no parts, and a part that was refused changes nothing.", "quantifier": "all keys of 1024 to 16384 bits, mechanisms and parameters, data, ways to cut it into parts, signatures, buffers and queries, all histories and all traces of other calls in between", "why_tests_cant": "Tests sign and verify a few messages without other activity; limits of the paddings, cuts and interleavings are met by chance only.", "anchors": ["src/fns/signing.rs: sign_init, sign, sign_update, sign_final, verify_init, verify, verify_update, verify_final, verify_signature_init, verify_signature, verify_signature_update, verify_signature_final", "src/rsa.rs: RsaPKCSMechanism, register", "src/ossl/rsa.rs: RsaPKCSOperation, sigver_new, rsa_object_to_pkey, parse_pss_params", "src/error.rs: From<ossl::Error>", "ossl/src/signature.rs: OsslSignature", "src/session.rs: Session::get_operation"]}
{"id": "C91", "title": "ML-DSA and SLH-DSA through the calls of a session", "statement": "After a successful C_SignInit, C_VerifyInit or C_VerifySignatureInit with CKM_ML_DSA, CKM_SLH_DSA, or a mechanism of theirs with a hash, whatever else is called on the same and other sessions: what C_Sign or C_SignFinal gives out is a signature of FIPS 204 or 205 over the M' made of the context of the parameter and of the data of C_Sign or the parts accepted, in order, deterministic if the parameter asks for it, and has the length of the parameter set; it is given out when the buffer is large enough; a verification answers CKR_OK exactly if the signature is valid for that M', and CKR_SIGNATURE_INVALID otherwise; a signature made through one session with the private key is accepted through any other, of this or another token, with the public key, also by another mechanism that makes the same M' (a digest computed by the caller instead of the message); CKM_HASH_ML_DSA and CKM_HASH_SLH_DSA take no parts.", "quantifier": "all keys of all parameter sets, mechanisms and parameters, data, ways to cut it into parts, signatures, buffers and queries, all histories and all traces of other calls in between", "why_tests_cant": "Tests sign and verify a few vectors without other activity; contexts, cuts, mechanisms and interleavings are met by chance only.", "anchors": ["src/fns/signing.rs: sign_init, sign, sign_update, sign_final, verify_init, verify, verify_update, verify_final, verify_signature_init, verify_signature, verify_signature_update, verify_signature_final", "src/mldsa.rs: MlDsaMechanism, register", "src/slhdsa.rs: SlhDsaMechanism, register", "src/ossl/mldsa.rs: MlDsaOperation, MlDsaParams, sigver_new, mldsa_object_to_pkey", "src/ossl/slhdsa.rs: SlhDsaOperation, SlhDsaParams", "src/error.rs: From<ossl::Error>", "ossl/src/signature.rs: OsslSignature", "src/session.rs: Session::get_operation"]}
{"id": "C92", "title": "What may be given to the start of a signature or verification", "statement": "In any state in which C_SignInit, C_VerifyInit or C_VerifySignatureInit succeeds with a signature mechanism and a key, the answer of the same call with any other parameter and any other signature is determined: for AES-MAC and CMAC a parameter of the wrong size is CKR_ARGUMENTS_BAD, a length above 16 CKR_MECHANISM_PARAM_INVALID, everything else succeeds; for ML-DSA and SLH-DSA likewise for size, hedge variant, context and digest of the parameter; ECDSA ignores the parameter; C_VerifySignatureInit answers CKR_SIGNATURE_LEN_RANGE exactly for signatures of a wrong length, and the other calls do not look at the signature.", "quantifier": "all reachable states, sessions, keys, parameters and signatures", "why_tests_cant": "Tests try a few good and bad parameters with a few keys, not every length.", "anchors": ["src/fns/signing.rs: sign_init, verify_init, verify_signature_init", "src/ossl/aes.rs: AesMacOperation::init, AesCmacOperation::init", "src/ossl/ecdsa.rs: EcdsaOperation::new_op", "src/ossl/eddsa.rs: EddsaOperation::new_op", "src/ossl/rsa.rs: sigver_new", "src/ossl/mldsa.rs: sigver_new, set_signature", "src/ossl/slhdsa.rs: sigver_new"]}
{"id": "C93", "title": "Numbers of mechanisms and their parameters", "statement": "The numbers that PKCS #11 gives to the signature mechanisms of RSA, ECDSA, ML-DSA and SLH-DSA, to the modes and MACs of AES, to the parameter sets of ML-DSA and SLH-DSA, and to the hashes and mask functions in CK_RSA_PKCS_PSS_PARAMS are read as exactly those algorithms: each number stands for one algorithm, no other number for any, and the parameter of RSA-PSS is read field by field. A parameter of RSA-PSS of a wrong size is CKR_ARGUMENTS_BAD, one with an unknown hash CKR_MECHANISM_INVALID, one with an unknown mask function or with another hash than that of the mechanism CKR_MECHANISM_PARAM_INVALID.", "quantifier": "all mechanism numbers, parameters, reachable states, sessions and keys", "why_tests_cant": "A mistake in one row of a table is found only by a test of that row, and signing and verifying with the same wrong row succeeds.", "anchors": ["src/ossl/rsa.rs: parse_sig_params, mgf1_to_digest_alg", "src/ossl/common.rs: mech_type_to_digest_alg", "src/pkcs11/mod.rs: get_parameters", "src/ossl/mldsa.rs: sigver_new, mldsa_param_set_to_pkey_type", "src/ossl/slhdsa.rs: sigver_new", "src/mldsa.rs: register", "src/slhdsa.rs: register", "src/ossl/aes.rs: register_mechanisms", "src/ec/ecdsa.rs: register"]}
