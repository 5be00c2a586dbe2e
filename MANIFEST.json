{
 "claims": [
  {
   "property": "C01",
   "status": "proved",
   "theorems": [
    "Rsasl.C01_parse_ok",
    "Rsasl.C01_parse_too_short",
    "Rsasl.C01_parse_invalid"
   ],
   "note": ""
  },
  {
   "property": "C02",
   "status": "partial",
   "theorems": [
    "Rsasl.C02_false",
    "Rsasl.C02_partial",
    "Rsasl.C02_no_channel_binding_partial",
    "Rsasl.C02_plus_registered_partial"
   ],
   "note": "False of the code: with channel bindings and only SCRAM-X-PLUS offered, bare SCRAM-X can be chosen (C02_false). The partial theorems cover sessions without channel bindings, registries that hold the -PLUS mechanisms, and the exact set otherwise."
  },
  {
   "property": "C03",
   "status": "proved",
   "theorems": [
    "Rsasl.C03_priority",
    "Rsasl.C03_offer_order"
   ],
   "note": ""
  },
  {
   "property": "C04",
   "status": "proved",
   "theorems": [
    "Rsasl.C04_no_shared",
    "Rsasl.C04_veto",
    "Rsasl.C04_last",
    "Rsasl.C04_panic",
    "Rsasl.C04_panics"
   ],
   "note": ""
  },
  {
   "property": "C05",
   "status": "proved",
   "theorems": [
    "Rsasl.C05_start",
    "Rsasl.C05_no_shared",
    "Rsasl.C05_available",
    "Rsasl.C05_available_start"
   ],
   "note": ""
  },
  {
   "property": "C06",
   "status": "proved",
   "theorems": [
    "Rsasl.C06_callback",
    "Rsasl.C06_mechanisms"
   ],
   "note": ""
  },
  {
   "property": "C07",
   "status": "proved",
   "theorems": [
    "Rsasl.C07_round_trip"
   ],
   "note": ""
  },
  {
   "property": "C08",
   "status": "proved",
   "theorems": [
    "Rsasl.C08_unambiguous"
   ],
   "note": ""
  },
  {
   "property": "C09",
   "status": "proved",
   "theorems": [
    "Rsasl.C09_accepts",
    "Rsasl.C09_rejects"
   ],
   "note": ""
  },
  {
   "property": "C10",
   "status": "proved",
   "theorems": [
    "Rsasl.C10_exchange",
    "Rsasl.C10_done",
    "Rsasl.C10_sequence"
   ],
   "note": ""
  },
  {
   "property": "C11",
   "status": "proved",
   "theorems": [
    "Rsasl.C11_external",
    "Rsasl.C11_external_server",
    "Rsasl.C11_anonymous",
    "Rsasl.C11_anonymous_server"
   ],
   "note": ""
  },
  {
   "property": "C12",
   "status": "partial",
   "theorems": [
    "Rsasl.C12_partial",
    "Rsasl.C12_server_rejects",
    "Rsasl.C12_separator",
    "Rsasl.C12_exact",
    "Rsasl.C12_false"
   ],
   "note": "False for user names containing the separator byte 0x01 (C12_false); proved for all others (C12_partial), together with the exact set of accepted messages. C12_exact: the server is shown what the client was given if and only if the name has no 0x01; C12_separator says what it makes of the others."
  },
  {
   "property": "C13",
   "status": "proved",
   "theorems": [
    "Rsasl.C13_server_error",
    "Rsasl.C13_server_ok",
    "Rsasl.C13_client",
    "Rsasl.C13_client_delivers",
    "Rsasl.C13_client_done"
   ],
   "note": ""
  },
  {
   "property": "C14",
   "status": "partial",
   "theorems": [
    "Rsasl.C14_partial",
    "Rsasl.C14_false_token",
    "Rsasl.C14_false",
    "Rsasl.C14_false_authzid",
    "Rsasl.C14_false_kv",
    "Rsasl.OAuthBearer.C14_exact",
    "Rsasl.OAuthBearer.C14_token_never"
   ],
   "note": "False of the code in several ways (C14_false, C14_false_token, C14_false_authzid, C14_false_kv): the token the server reports keeps the 'Bearer ' prefix, authzids are not escaped, values with '=' are rejected. The partial theorem gives the exact round trip that does hold. C14_exact: that round trip happens if and only if no value has a separator and no key is auth; C14_token_never: the bare token is never offered."
  },
  {
   "property": "C15",
   "status": "partial",
   "theorems": [
    "Rsasl.C15_partial",
    "Rsasl.C15_oauth_partial",
    "Rsasl.C15_scram_partial",
    "Rsasl.C15_gssapi_never",
    "Rsasl.C15_false_scram",
    "Rsasl.C15_false_gssapi",
    "Rsasl.C15_false_xoauth2"
   ],
   "note": "False of the code: a SCRAM server reports Finished after a failed proof without calling validate, a GSSAPI server never calls it, and the XOAUTH2 and OAUTHBEARER servers call it while returning Running (C15_false_*). Proved exactly once for the other servers, at most once for SCRAM, with the exact count for the OAuth servers."
  },
  {
   "property": "C16",
   "status": "proved",
   "theorems": [
    "Rsasl.C16_first_wins",
    "Rsasl.C16_with_not_evaluated",
    "Rsasl.C16_session",
    "Rsasl.C16_read_once",
    "Rsasl.C16_read_only",
    "Rsasl.C16_read_later",
    "Rsasl.C16_with_evaluated"
   ],
   "note": "One validate call (C16_first_wins, C16_with_evaluated: exactly which closures are evaluated) and whole sessions of all built-in mechanisms under any sequence of calls (C16_session, C16_read_once, C16_read_later)."
  },
  {
   "property": "C17",
   "status": "partial",
   "theorems": [
    "Rsasl.C17_first_answer",
    "Rsasl.C17_other_property",
    "Rsasl.C17_stays_answered_false",
    "Rsasl.C17_reevaluates",
    "Rsasl.C17_answered_partial",
    "Rsasl.C17_exact",
    "Rsasl.C17_gets_through"
   ],
   "note": "Exactly how a request ends, for every callback and closure, is C17_exact, and which answers get through is C17_gets_through. The consumed answer is the first one (proved for every callback). False of the code: answering twice loses the answer (C17_stays_answered_false) and satisfy_with closures are evaluated again (C17_reevaluates)."
  },
  {
   "property": "C18",
   "status": "proved",
   "theorems": [
    "Rsasl.C18_unanswered_optional",
    "Rsasl.C18_unanswered_required",
    "Rsasl.C18_answered",
    "Rsasl.C18_required_ok",
    "Rsasl.C18_early_return_hidden",
    "Rsasl.C18_required"
   ],
   "note": ""
  },
  {
   "property": "C19",
   "status": "proved",
   "theorems": [
    "Rsasl.C19_action",
    "Rsasl.C19_taken",
    "Rsasl.C19_exact"
   ],
   "note": ""
  },
  {
   "property": "C20",
   "status": "proved",
   "theorems": [
    "Rsasl.C20_getRef_some",
    "Rsasl.C20_getRef_none",
    "Rsasl.C20_getMut_none"
   ],
   "note": ""
  },
  {
   "property": "C21",
   "status": "proved",
   "theorems": [
    "Rsasl.C21_cooperative",
    "Rsasl.C21_any_writer",
    "Rsasl.C21_resume",
    "Rsasl.C21_resume_completes"
   ],
   "note": ""
  },
  {
   "property": "C22",
   "status": "partial",
   "theorems": [
    "Rsasl.C22_partial",
    "Rsasl.C22_unvectored_partial",
    "Rsasl.C22_short_writes",
    "Rsasl.C22_interruptions",
    "Rsasl.C22_zero_false",
    "Rsasl.C22_swallow_false"
   ],
   "note": "Proved for every built-in mechanism for writers that never answer Ok(0) and callbacks that hand on the error satisfy returns (C22_partial); for arbitrary writers for mechanisms not using the vectored writer (C22_unvectored_partial); without condition on callbacks for short writes (C22_short_writes) and interruptions (C22_interruptions). The full property is false: C22_zero_false, C22_swallow_false."
  },
  {
   "property": "C23",
   "status": "proved",
   "theorems": [
    "Rsasl.C23_step64",
    "Rsasl.C23_step64_none",
    "Rsasl.C23_refused"
   ],
   "note": ""
  },
  {
   "property": "C24",
   "status": "proved",
   "theorems": [
    "Rsasl.C24_decode_encode",
    "Rsasl.C24_canonical",
    "Rsasl.C24_no_aliases",
    "Rsasl.C24_rfc4648"
   ],
   "note": ""
  },
  {
   "property": "C25",
   "status": "proved",
   "theorems": [
    "Rsasl.C25",
    "Rsasl.C25_decides"
   ],
   "note": ""
  },
  {
   "property": "C26",
   "status": "partial",
   "theorems": [
    "Rsasl.C26_false",
    "Rsasl.C26_partial",
    "Rsasl.C26_exact"
   ],
   "note": "False of the code in full: extension attributes a client sends are not covered by the signature the server checks (C26_false). Proved: what the proof does cover, for every callback, writer and client (C26_partial), and that it is the exact messages when there are no extensions (C26_exact)."
  },
  {
   "property": "C27",
   "status": "proved",
   "theorems": [
    "Rsasl.C27"
   ],
   "note": ""
  },
  {
   "property": "C28",
   "status": "proved",
   "theorems": [
    "Rsasl.C28",
    "Rsasl.C28_refused"
   ],
   "note": ""
  },
  {
   "property": "C29",
   "status": "proved",
   "theorems": [
    "Rsasl.C29_client",
    "Rsasl.C29_server",
    "Rsasl.C29"
   ],
   "note": "C29_client and C29_server are for arbitrary callbacks; C29 puts them together from selection to the end of the server session."
  },
  {
   "property": "C30",
   "status": "partial",
   "theorems": [
    "Rsasl.C30_false",
    "Rsasl.C30_partial",
    "Rsasl.C30_otherwise"
   ],
   "note": "False of the code: a -PLUS server session accepts a client that says it has no channel binding (C30_false). Proved for all clients that do not say so (C30_partial). C30_otherwise joins the two: validated only after 'n,' or with the binding covered."
  },
  {
   "property": "C31",
   "status": "proved",
   "theorems": [
    "Rsasl.C31_covered",
    "Rsasl.C31_tampered",
    "Rsasl.C31_missing"
   ],
   "note": ""
  },
  {
   "property": "C32",
   "status": "proved",
   "theorems": [
    "Rsasl.C32_iterator",
    "Rsasl.C32_iff",
    "Rsasl.C32_rfc",
    "Rsasl.C32_form",
    "Rsasl.C32_injective",
    "Rsasl.C32_plain"
   ],
   "note": ""
  },
  {
   "property": "C33",
   "status": "partial",
   "theorems": [
    "Rsasl.C33_written",
    "Rsasl.C33_partial",
    "Rsasl.C33_exact",
    "Rsasl.C33_false"
   ],
   "note": "False of the code: the server offers the names to its callbacks as written in the message, not unescaped (C33_false). Proved: exactly what is offered (C33_written), and the full statement for names without ',' and '=' (C33_partial). C33_exact: what is shown is what was given if and only if it has neither ',' nor '='."
  },
  {
   "property": "C34",
   "status": "proved",
   "theorems": [
    "Rsasl.C34_client_first",
    "Rsasl.C34_server_first",
    "Rsasl.C34_client_final",
    "Rsasl.C34_server_final"
   ],
   "note": ""
  },
  {
   "property": "C35",
   "status": "partial",
   "theorems": [
    "Rsasl.C35_partial",
    "Rsasl.C35_scram_client_partial",
    "Rsasl.C35_scram_server_partial",
    "Rsasl.C35_false_server",
    "Rsasl.C35_false_client",
    "Rsasl.C35_false_cached"
   ],
   "note": "False of the code for SCRAM: 'n,,n' panics the server, 'r=x,s' or cached keys of the wrong length panic the client (C35_false_*). Proved for all other mechanisms (no call ever panics) and for SCRAM peers whose messages have two bytes between commas. Exactly what makes SCRAM panic is C55."
  },
  {
   "property": "C36",
   "status": "partial",
   "theorems": [
    "Rsasl.C36_partial",
    "Rsasl.C36_as_if_never_called",
    "Rsasl.C36_false_scram",
    "Rsasl.C36_false_scram_client",
    "Rsasl.C36_false_gssapi",
    "Rsasl.C36_exact"
   ],
   "note": "False of the code for SCRAM and GSSAPI, which lose their state (C36_false_*). Proved for the others. C36_exact: it holds for exactly those."
  },
  {
   "property": "C37",
   "status": "proved",
   "theorems": [
    "Rsasl.C37"
   ],
   "note": ""
  },
  {
   "property": "C38",
   "status": "proved",
   "theorems": [
    "Rsasl.C38_consistent",
    "Rsasl.C38_only_gssapi",
    "Rsasl.C38_only_after_finished"
   ],
   "note": ""
  },
  {
   "property": "C39",
   "status": "partial",
   "theorems": [
    "Rsasl.Gssapi.C39_partial",
    "Rsasl.Gssapi.C39_any_partial",
    "Rsasl.Gssapi.C39_layer_finished",
    "Rsasl.Gssapi.C39_false"
   ],
   "note": "proved for callbacks that answer consistently and hand on satisfy's result, and (weaker) for all callbacks; the full claim is refuted by C39_false: a callback ignoring satisfy's BadContext error makes the client accept every layer"
  },
  {
   "property": "C40",
   "status": "partial",
   "theorems": [
    "Rsasl.Gssapi.C40_nothing",
    "Rsasl.Gssapi.C40_partial",
    "Rsasl.Gssapi.C40_any_partial",
    "Rsasl.Gssapi.C40_strongest",
    "Rsasl.Gssapi.C40_false"
   ],
   "note": "proved when the client names a single layer; refuted in general by C40_false: the server only checks that the client's set intersects its own, then installs the strongest layer named. C40_strongest: for all clients the layer in force is the strongest the client named"
  },
  {
   "property": "C41",
   "status": "partial",
   "theorems": [
    "Rsasl.Gssapi.C41_never",
    "Rsasl.Gssapi.C41_partial",
    "Rsasl.Gssapi.C41_false"
   ],
   "note": "refuted by C41_false/C41_never: after a token that does not complete the context the state stays Errored; C41_partial covers contexts complete after the first token"
  },
  {
   "property": "C42",
   "status": "proved",
   "theorems": [
    "Rsasl.C42",
    "Rsasl.C42_client_survives",
    "Rsasl.C42_server_survives"
   ],
   "note": ""
  },
  {
   "property": "C43",
   "status": "proved",
   "theorems": [
    "Rsasl.C43_protocol_first",
    "Rsasl.C43_then_callback",
    "Rsasl.C43_missing",
    "Rsasl.C43_exact"
   ],
   "note": ""
  },
  {
   "property": "C44",
   "status": "proved",
   "theorems": [
    "Rsasl.Scram.C44"
   ],
   "note": "Two-run theorem for every sequence of calls on the session: callbacks that are equal except for passwords with equal PBKDF2 results (at the salt and iteration count of the request) give identical answers and states. PBKDF2 is a parameter."
  },
  {
   "property": "C45",
   "status": "proved",
   "theorems": [
    "Rsasl.Scram.C45_keys",
    "Rsasl.Scram.C45",
    "Rsasl.Scram.C45_order"
   ],
   "note": "C45: same replies and states for the three forms, for all server inputs and writers, from the second step on (the first does not involve the keys; C44 covers it). C45_keys is the general form. C45_order is about every callback. The salted password has to be non-empty, so the hash's output length is positive."
  },
  {
   "property": "C46",
   "status": "proved",
   "theorems": [
    "Rsasl.C46_never",
    "Rsasl.C46_runs"
   ],
   "note": ""
  },
  {
   "property": "C47",
   "status": "proved",
   "theorems": [
    "Rsasl.C47_interleaving"
   ],
   "note": "Two sessions of built-in mechanisms, any sequence of interleaved calls, one shared random number generator: each behaves as alone on a stream beginning with the numbers it drew. Callbacks may depend on the history of their own session; state shared between callbacks is excluded by the property."
  },
  {
   "property": "C48",
   "status": "proved",
   "theorems": [
    "Rsasl.C48_client",
    "Rsasl.C48_server_first",
    "Rsasl.C48_server_second"
   ],
   "note": ""
  },
  {
   "property": "C49",
   "status": "proved",
   "theorems": [
    "Rsasl.C49_names",
    "Rsasl.C49",
    "Rsasl.C49_unknown"
   ],
   "note": ""
  },
  {
   "property": "C50",
   "status": "partial",
   "theorems": [
    "Rsasl.C50_never",
    "Rsasl.C50_partial",
    "Rsasl.C50_false"
   ],
   "note": "Never validates: proved for every callback (C50_never). The step fails: proved for callbacks that hand on the error of satisfy (C50_partial), false for those that ignore it (C50_false)."
  },
  {
   "property": "C51",
   "status": "proved",
   "theorems": [
    "Rsasl.C51"
   ],
   "note": ""
  },
  {
   "property": "C52",
   "status": "proved",
   "theorems": [
    "Rsasl.OAuthBearer.C52_parse",
    "Rsasl.OAuthBearer.C52_rejects",
    "Rsasl.OAuthBearer.C52_accepts"
   ],
   "note": "C52_parse: the exact grammar, both directions, for all byte strings; C52_rejects and C52_accepts carry it to the server's step. The grammar is the code's: what follows a second comma in the gs2 header is ignored and the last auth item wins (see DESIGN.md)."
  },
  {
   "property": "C53",
   "status": "partial",
   "theorems": [
    "Rsasl.C53_client_first_partial",
    "Rsasl.C53_server_first_partial",
    "Rsasl.C53_client_final_partial",
    "Rsasl.C53_server_final_partial",
    "Rsasl.C53_rfc_client_first",
    "Rsasl.C53_rfc_client_final",
    "Rsasl.C53_rfc_server_first_partial",
    "Rsasl.C53_server_first_false",
    "Rsasl.C53_server_final_false",
    "Rsasl.C53_client_first_false",
    "Rsasl.C53_authzid_false"
   ],
   "note": "The exact accepted languages are proved (the _partial theorems), and that all RFC client messages are among them. False in general: the server also accepts an empty nonce and an authzid with any two-byte prefix; the client refuses a server-first message with an optional extension and takes one in the server-final message for part of the verifier."
  },
  {
   "property": "C54",
   "status": "proved",
   "theorems": [
    "Rsasl.C54_client_first",
    "Rsasl.C54_server_first",
    "Rsasl.C54_client_final",
    "Rsasl.C54_server_step",
    "Rsasl.C54_server_final_step",
    "Rsasl.C54_client_step"
   ],
   "note": "Exact for all three parsers that have a place for mandatory extensions, and carried to the steps."
  },
  {
   "property": "C55",
   "status": "proved",
   "theorems": [
    "Rsasl.C55_server_step",
    "Rsasl.C55_client_step",
    "Rsasl.C55_server_session",
    "Rsasl.C55_client_session",
    "Rsasl.C55_client_keys",
    "Rsasl.C55_client_first",
    "Rsasl.C55_server_first",
    "Rsasl.C55_client_final",
    "Rsasl.C55_server_final",
    "Rsasl.C55_steps"
   ],
   "note": "Exact for all four parsers, and carried to the steps. `C55_server_session`, `C55_client_session`: a session under way panics at exactly these messages (client: with cached keys of the digest's length). `C55_client_keys`: without that condition the client panics besides exactly when it takes cached keys of another length."
  },
  {
   "property": "C56",
   "status": "proved",
   "theorems": [
    "Rsasl.Gssapi.C56"
   ],
   "note": "For all lists of messages; the library is a parameter, connected contexts are the only assumption."
  },
  {
   "property": "C57",
   "status": "proved",
   "theorems": [
    "Rsasl.Gssapi.C57",
    "Rsasl.Gssapi.C57_single"
   ],
   "note": "Contexts with one token each way (C57) or a single token (C57_single); longer handshakes do not work on the server side (C41)."
  },
  {
   "property": "C58",
   "status": "proved",
   "theorems": [
    "Rsasl.Gssapi.C58"
   ],
   "note": "Exact for callbacks that answer the question and hand on satisfy's result."
  },
  {
   "property": "C59",
   "status": "partial",
   "theorems": [
    "Rsasl.Gssapi.C59_partial",
    "Rsasl.Gssapi.C59_offered_partial",
    "Rsasl.Gssapi.C59_false"
   ],
   "note": "False of the code: without a restricting answer the client takes confidentiality from the server's list though its context lacks it (C59_false). Proved when a single layer is named, and that some named layer is supported otherwise (C59_partial); and for every callback with a server that offers only what the context supports (C59_offered_partial)."
  },
  {
   "property": "C60",
   "status": "partial",
   "theorems": [
    "Rsasl.OAuthBearer.C60_server",
    "Rsasl.OAuthBearer.C60_server_ok",
    "Rsasl.OAuthBearer.C60_client",
    "Rsasl.OAuthBearer.C60_partial",
    "Rsasl.OAuthBearer.C60_false_escaped",
    "Rsasl.OAuthBearer.C60_false"
   ],
   "note": "False of the code: the fields of OAuthBearerError are borrowed strings, so serde_json refuses texts with escape sequences, and the client fails without telling its callback (C60_false, C60_false_escaped: exactly the errors that need escapes). Proved for all others. The laws of serde_json used are Spec.Serde; a reader that meets them is given."
  },
  {
   "property": "C61",
   "status": "partial",
   "theorems": [
    "Rsasl.Scram.C61_partial",
    "Rsasl.Scram.C61_false"
   ],
   "note": "False of the code: a callback that answers OverrideCBType twice in one call, ignoring the error of the second answer, makes the client announce a channel binding type nobody gave (C61_false). Proved for callbacks that hand on the error of satisfy (Env.Upright), which is how the documentation says to write them."
  },
  {
   "property": "C62",
   "status": "proved",
   "theorems": [
    "Rsasl.C62_start",
    "Rsasl.C62_started",
    "Rsasl.C62_scram",
    "Rsasl.C62_plain",
    "Rsasl.C62_login",
    "Rsasl.C62"
   ],
   "note": "SCRAM shows the server the escaped name and PLAIN the prepared one; Knows says the server knows the user under the name it is shown."
  },
  {
   "property": "C63",
   "status": "partial",
   "theorems": [
    "Rsasl.C63_verdict",
    "Rsasl.C63_plain_partial",
    "Rsasl.C63_plain_nobody",
    "Rsasl.C63_false",
    "Rsasl.C63_scram_accepts",
    "Rsasl.C63_scram_only"
   ],
   "note": "False of the PLAIN example: the server offers an empty AuthzId when the client sent none (as documented), the example compares it with the name, and refuses everyone without an authzid, also with the right password (C63_false, C63_plain_nobody); its first assertion fails. Proved for clients that send one, and both directions for the SCRAM example."
  },
  {
   "property": "C64",
   "status": "partial",
   "theorems": [
    "Rsasl.C64_partial",
    "Rsasl.C64_but_authzid_partial",
    "Rsasl.C64_false_scram",
    "Rsasl.C64_false_oauthbearer",
    "Rsasl.C64_false"
   ],
   "note": "False of the code for SCRAM (with any hash) and OAUTHBEARER, which offer AuthzId only if the client sent one (C64_false_scram, C64_false_oauthbearer). Proved for all other servers (C64_partial), and for all servers that no other property varies (C64_but_authzid_partial)."
  },
  {
   "property": "C65",
   "status": "proved",
   "theorems": [
    "Rsasl.C65_client",
    "Rsasl.C65_server"
   ],
   "note": "The tables Spec.clientContacts and Spec.serverContacts are the documentation, completed where it is silent (LOGIN, the secrets a SCRAM client asks for, SCRAM and GSSAPI servers)."
  },
  {
   "property": "C66",
   "status": "proved",
   "theorems": [
    "Rsasl.C66_no_plaintext",
    "Rsasl.C66_no_sha1",
    "Rsasl.C66_plus",
    "Rsasl.C66_tie",
    "Rsasl.C66_order",
    "Rsasl.C66_default_order",
    "Rsasl.C66_registrations",
    "Rsasl.C66_default",
    "Rsasl.C66_starts",
    "Rsasl.C66_priorities"
   ],
   "note": "SCRAM-SHA-512 is missing from the documented order of with_credentials; the code puts it after SCRAM-SHA-256 (same priority, registered earlier)."
  },
  {
   "property": "C67",
   "status": "proved",
   "theorems": [
    "Rsasl.C67_client",
    "Rsasl.C67_server",
    "Rsasl.C67_layer",
    "Rsasl.C67_step64",
    "Rsasl.C67_mutual",
    "Rsasl.C67_input",
    "Rsasl.C67_early",
    "Rsasl.C67_noValue",
    "Rsasl.C67_unused",
    "Rsasl.C67_outcome",
    "Rsasl.C67_missing"
   ],
   "note": "The hypothesis Withholds/ErrsIn is about the user's callback, which may return any SessionError it likes. NoValidate is documented as 'callback did not validate the authentication exchange' but nothing in the crate returns it. That the entries of the tables do occur is C94."
  },
  {
   "property": "C68",
   "status": "proved",
   "theorems": [
    "Rsasl.C68_client",
    "Rsasl.C68_server",
    "Rsasl.C68_has_sent",
    "Rsasl.C68_no_loss",
    "Rsasl.C68_no_loss64",
    "Rsasl.C68_empty"
   ],
   "note": "Running with an empty message does happen for GSSAPI, LOGIN's client and the OAuth servers (C68_empty), which the documentation of MessageSent allows."
  },
  {
   "property": "C69",
   "status": "partial",
   "theorems": [
    "Rsasl.C69_client_partial",
    "Rsasl.C69_server_partial",
    "Rsasl.C69_gssapi_server_partial",
    "Rsasl.C69_false_login",
    "Rsasl.C69_false_gssapi",
    "Rsasl.C69_false_gssapi_server",
    "Rsasl.C69_scram_client_partial",
    "Rsasl.C69_refusing_server_partial",
    "Rsasl.C69_false_takes",
    "Rsasl.C69_false_done"
   ],
   "note": "The first part holds for all but LOGIN's client, GSSAPI's client and GSSAPI's server with a library that ends with a token. The second part holds for PLAIN's and LOGIN's servers and both sides of SCRAM; the others take no input for an empty message."
  },
  {
   "property": "C70",
   "status": "proved",
   "theorems": [
    "Rsasl.C70_cast",
    "Rsasl.C70_ids_needed",
    "Rsasl.C70_is_satisfiable",
    "Rsasl.C70_is_actionable",
    "Rsasl.C70_satisfiable",
    "Rsasl.C70_actionable",
    "Rsasl.C70_maybe_need_with",
    "Rsasl.C70_action",
    "Rsasl.C70_safe",
    "Rsasl.C70_offers",
    "Rsasl.C70_offers_mut",
    "Rsasl.C70_provide",
    "Rsasl.C70_get_ref",
    "Rsasl.C70_get_mut",
    "Rsasl.C70_validate"
   ],
   "note": "Under the assumption that different types have different TypeIds; C70_ids_needed shows that it is needed. Lifetimes are not modelled."
  },
  {
   "property": "C71",
   "status": "proved",
   "theorems": [
    "Rsasl.C71_this_cb",
    "Rsasl.C71_no_data",
    "Rsasl.C71_start",
    "Rsasl.C71_sha1",
    "Rsasl.C71_exchange",
    "Rsasl.C71_mismatch",
    "Rsasl.C71_missing",
    "Rsasl.C71"
   ],
   "note": "C71_sha1 shows why the hash must not be SHA-1: SCRAM without binding on SHA-2 is preferred to SCRAM-SHA-1-PLUS."
  },
  {
   "property": "C72",
   "status": "proved",
   "theorems": [
    "Rsasl.C72",
    "Rsasl.C72_oauth",
    "Rsasl.C72_reason_needed",
    "Rsasl.C72_good_token"
   ],
   "note": "C72_reason_needed: an XOAUTH2 server whose application refuses with the empty string is left waiting, as the client takes the empty message for success."
  },
  {
   "property": "C73",
   "status": "partial",
   "theorems": [
    "Rsasl.C73",
    "Rsasl.C73_whole",
    "Rsasl.C73_partial",
    "Rsasl.C73_write_all",
    "Rsasl.C73_write_all_vectored",
    "Rsasl.C73_calls",
    "Rsasl.C73_total",
    "Rsasl.C73_drop_false",
    "Rsasl.C73_short_false"
   ],
   "note": "Prefix in all cases; whole over outer writers that take 1024 bytes per call. False otherwise: C73_drop_false (error at drop lost), C73_short_false (one short write cuts a piece out of a SCRAM or XOAUTH2 message). The encoder is an external crate modelled from its documentation."
  },
  {
   "property": "C74",
   "status": "partial",
   "theorems": [
    "Rsasl.Interop.C74_error_line",
    "Rsasl.C74_space",
    "Rsasl.C74_words",
    "Rsasl.C74_trim",
    "Rsasl.C74_names",
    "Rsasl.C74_dialogue",
    "Rsasl.C74_ok",
    "Rsasl.C74_lines",
    "Rsasl.C74_debug",
    "Rsasl.C74_display",
    "Rsasl.C74_partial",
    "Rsasl.C74_plain",
    "Rsasl.C74_login",
    "Rsasl.C74_false",
    "Rsasl.C74_ambiguous",
    "Rsasl.C74_key_length",
    "Rsasl.C74_unset",
    "Rsasl.C74_client_mech",
    "Rsasl.C74_client_sends",
    "Rsasl.C74_client_prints",
    "Rsasl.C74_client_determined",
    "Rsasl.C74_name_only",
    "Rsasl.C74_client_server"
   ],
   "note": "The dialogue and the reasons for OK hold for all clients. The result is one line if no message has a line end; otherwise false: C74_false (a LOGIN name with a line end forges a result line). The client only ever sends the mechanism's name, so it never completes a dialogue (C74_client_server). The server's environment variables, its error texts and the transport are parameters. C74_error_line: with the texts of the library (C96) the reason of a failure is always one line."
  },
  {
   "property": "C75",
   "status": "partial",
   "theorems": [
    "Rsasl.C75_exact",
    "Rsasl.C75_diverges",
    "Rsasl.C75_partial",
    "Rsasl.C75_false"
   ],
   "note": "Exact for all inputs (C75_exact). The claim holds for names without comma and equals sign; for all others the function does not return (C75_diverges, C75_false). The function has no caller."
  },
  {
   "property": "C76",
   "status": "proved",
   "theorems": [
    "Rsasl.C76_client_first",
    "Rsasl.C76_client_first_total",
    "Rsasl.C76_client_final",
    "Rsasl.C76_server_total",
    "Rsasl.C76_server_final"
   ],
   "note": ""
  },
  {
   "property": "C77",
   "status": "proved",
   "theorems": [
    "Rsasl.Scram.C77_client_first",
    "Rsasl.Scram.C77_server_first",
    "Rsasl.Scram.C77_client_final",
    "Rsasl.Scram.C77_server_final",
    "Rsasl.Scram.C77_steps",
    "Rsasl.Scram.C77_unique"
   ],
   "note": ""
  },
  {
   "property": "C78",
   "status": "proved",
   "theorems": [
    "Rsasl.C78_server",
    "Rsasl.C78_once",
    "Rsasl.C78_client",
    "Rsasl.C78_verifier"
   ],
   "note": ""
  },
  {
   "property": "C79",
   "status": "proved",
   "theorems": [
    "Rsasl.C79_server",
    "Rsasl.C79_client"
   ],
   "note": "What each side has bound, its keys and what is stored are tied to its own channel and to what its callbacks answered (opening, OwnBinding, KeysFrom over the session's log)."
  },
  {
   "property": "C80",
   "status": "partial",
   "theorems": [
    "Rsasl.C80_unknown",
    "Rsasl.C80_known",
    "Rsasl.C80_partial",
    "Rsasl.C80_told",
    "Rsasl.C80_false",
    "Rsasl.C80_repeat"
   ],
   "note": "The full claim is false of the code (`C80_false`): the last message is e=unknown-user for unknown users and for no others (`C80_told`), and the salt of an unknown user changes with every attempt (`C80_repeat`). Proved: the first message tells nothing (`C80_partial`)."
  },
  {
   "property": "C81",
   "status": "proved",
   "theorems": [
    "Rsasl.C81"
   ],
   "note": ""
  },
  {
   "property": "C82",
   "status": "partial",
   "theorems": [
    "Rsasl.C82_partial",
    "Rsasl.C82_gssapi_server_partial",
    "Rsasl.C82_finished_partial",
    "Rsasl.C82_false_guess",
    "Rsasl.C82_false_again",
    "Rsasl.C82_false_client",
    "Rsasl.C82_false_gssapi_server",
    "Rsasl.C82_false"
   ],
   "note": "The documentation leaves open what happens then. Proved for both sides of SCRAM and GSSAPI's client (`C82_partial`), for GSSAPI's server unless the writer failed (`C82_gssapi_server_partial`), and after Finished for LOGIN and the OAuth clients too (`C82_finished_partial`). False for the others: `C82_false_guess`, `C82_false_again`, `C82_false_client`, `C82_false_gssapi_server`."
  },
  {
   "property": "C83",
   "status": "partial",
   "theorems": [
    "Rsasl.Scram.C83_client_first",
    "Rsasl.Scram.C83_client_final",
    "Rsasl.Scram.C83_client_initial",
    "Rsasl.Scram.C83_server_final",
    "Rsasl.Scram.C83_server_first",
    "Rsasl.Scram.C83_client_partial",
    "Rsasl.Scram.C83_server_partial",
    "Rsasl.C83_false_flag",
    "Rsasl.C83_false_hash",
    "Rsasl.C83_false_base64",
    "Rsasl.C83_false"
   ],
   "note": "`C83_client_first`, `C83_client_final`, `C83_server_final` say exactly which mechanism error is returned when. `C83_client_partial`, `C83_server_partial`: the kinds are as documented if \"syntax\" means which attributes a message has. By the RFC's grammar the claim is false: `C83_false_flag`, `C83_false_hash` (kind Parse, message without fault), `C83_false_base64` (kind Protocol, message outside the grammar)."
  },
  {
   "property": "C84",
   "status": "partial",
   "theorems": [
    "Rsasl.C84_partial",
    "Rsasl.C84_false",
    "Rsasl.C84_once",
    "Rsasl.C84_static",
    "Rsasl.C84_credentials",
    "Rsasl.C84_builder",
    "Rsasl.C84_credentials_full",
    "Rsasl.C84_unoffered",
    "Rsasl.C84_order",
    "Rsasl.C84_client",
    "Rsasl.C84_server",
    "Rsasl.C84_static_shipped",
    "Rsasl.C84_none"
   ],
   "note": "`C84_partial` is the claim but for GSSAPI and the `-PLUS` mechanisms; `C84_false`: those are not in the default registry with every feature on. `C84_static`: with `registry_static` GSSAPI is, the `-PLUS` mechanisms still are not."
  },
  {
   "property": "C85",
   "status": "proved",
   "theorems": [
    "Rsasl.C85_client",
    "Rsasl.C85_server",
    "Rsasl.C85_once",
    "Rsasl.C85_sides",
    "Rsasl.C85_shows_last",
    "Rsasl.C85_life",
    "Rsasl.C85_always",
    "Rsasl.C85_again",
    "Rsasl.C85_tight"
   ],
   "note": "Up to the end of the exchange; `C85_again`: PLAIN's client starts over when it is called after its end (see C82)."
  },
  {
   "property": "C86",
   "status": "partial",
   "theorems": [
    "Rsasl.C86_partial",
    "Rsasl.C86_typed",
    "Rsasl.C86_false",
    "Rsasl.C86_never",
    "Rsasl.C86_refused",
    "Rsasl.C86_selection"
   ],
   "note": "The full claim is false (`C86_false`, `C86_never`): the line feeds are not taken off, so every user name that is sent ends in one, and a server whose SASLprep refuses control characters refuses every message (`C86_refused`). `C86_partial` gives the exact result for every input; the selection example is right (`C86_selection`)."
  },
  {
   "property": "C87",
   "status": "proved",
   "theorems": [
    "Rsasl.OAuthBearer.C87_oauthbearer_parse",
    "Rsasl.XOAuth2.C87_xoauth2_parse",
    "Rsasl.C87_plain",
    "Rsasl.C87_plain_shown",
    "Rsasl.C87_xoauth2",
    "Rsasl.C87_oauthbearer",
    "Rsasl.C87_text",
    "Rsasl.C87_login",
    "Rsasl.C87_one",
    "Rsasl.C87_unused"
   ],
   "note": "A gs2 header that does not begin with `n` counts as a wish for channel binding, whatever it is."
  },
  {
   "property": "C88",
   "status": "proved",
   "theorems": [
    "Rsasl.C88_mechname",
    "Rsasl.C88_try_from",
    "Rsasl.C88_try_from_bytes",
    "Rsasl.C88_eq",
    "Rsasl.C88_constants",
    "Rsasl.C88_cbname",
    "Rsasl.C88_unchecked"
   ],
   "note": "`const_new_unchecked` takes any bytes, as documented; `C88_unchecked` says when the name can be used."
  },
  {
   "property": "C89",
   "status": "partial",
   "theorems": [
    "Rsasl.C89",
    "Rsasl.C89_refused",
    "Rsasl.C89_value",
    "Rsasl.C89_never_partial",
    "Rsasl.C89_scram",
    "Rsasl.C89_never_false",
    "Rsasl.C89_silent_partial",
    "Rsasl.C89_silent_false"
   ],
   "note": "The first sentence is proved for all servers (`C89`). The second fails: an XOAUTH2 server finishes when stepped after the refusal, and a SCRAM server has sent its signature before it calls validate."
  },
  {
   "property": "C90",
   "status": "partial",
   "theorems": [
    "Rsasl.C90_draws",
    "Rsasl.C90_chars_partial",
    "Rsasl.C90_chars_false",
    "Rsasl.C90_differ",
    "Rsasl.C90_apart"
   ],
   "note": "All but one clause proved. False: `PRINTABLE` lacks z, {, |, } and ~, so a nonce never has them (`C90_chars_false`); the other 88 characters stand for one residue each (`C90_chars_partial`)."
  },
  {
   "property": "C91",
   "status": "proved",
   "theorems": [
    "Rsasl.C91_calls",
    "Rsasl.C91_ends",
    "Rsasl.C91_input",
    "Rsasl.C91_panic",
    "Rsasl.C91_plain",
    "Rsasl.C91_primer",
    "Rsasl.C91_gssapi"
   ],
   "note": "The GSSAPI library decides how long its exchange goes on (`C91_gssapi`). The data shown in the introduction are those of a password with a line feed (`C91_primer`)."
  },
  {
   "property": "C92",
   "status": "partial",
   "theorems": [
    "Rsasl.C92_partial",
    "Rsasl.C92_unvectored_partial",
    "Rsasl.C92_zero_false",
    "Rsasl.C92_swallow_false"
   ],
   "note": "Holds for callbacks that hand on the errors of the writer, with writers that never answer Ok(0), or with any writer for mechanisms that do not use the vectored writer. Otherwise false: XOAUTH2 sends the token without the user (C92_zero_false), OAUTHBEARER drops the authorization identity (C92_swallow_false)."
  },
  {
   "property": "C93",
   "status": "proved",
   "theorems": [
    "Rsasl.Gssapi.C93_server",
    "Rsasl.Gssapi.C93_client",
    "Rsasl.Gssapi.C93_server_unique",
    "Rsasl.Gssapi.C93_client_unique"
   ],
   "note": ""
  },
  {
   "property": "C94",
   "status": "proved",
   "theorems": [
    "Rsasl.C94_client",
    "Rsasl.C94_server",
    "Rsasl.C94_layer"
   ],
   "note": ""
  },
  {
   "property": "C95",
   "status": "proved",
   "theorems": [
    "Rsasl.C95",
    "Rsasl.C95_so_far",
    "Rsasl.C95_client",
    "Rsasl.C95_server",
    "Rsasl.C95_first"
   ],
   "note": ""
  },
  {
   "property": "C96",
   "status": "proved",
   "theorems": [
    "Rsasl.C96_debug",
    "Rsasl.C96_display",
    "Rsasl.C96_server",
    "Rsasl.C96_client",
    "Rsasl.C96_chosen",
    "Rsasl.C96_variant",
    "Rsasl.C96_tells",
    "Rsasl.C96_refusal",
    "Rsasl.C96_mechname"
   ],
   "note": ""
  },
  {
   "property": "C97",
   "status": "proved",
   "theorems": [
    "Rsasl.C97_order",
    "Rsasl.C97_completes",
    "Rsasl.C97_plain",
    "Rsasl.C97_login",
    "Rsasl.C97_scram",
    "Rsasl.C97_every_order",
    "Rsasl.C97_empty_first",
    "Rsasl.C97_variables",
    "Rsasl.C97_unwraps",
    "Rsasl.C97_outcome",
    "Rsasl.C97_verdict",
    "Rsasl.C97_passes"
   ],
   "note": ""
  },
  {
   "property": "C98",
   "status": "proved",
   "theorems": [
    "Rsasl.C98_client",
    "Rsasl.C98_client_all",
    "Rsasl.C98_client_cb",
    "Rsasl.C98_server",
    "Rsasl.C98_server_all",
    "Rsasl.C98_panics",
    "Rsasl.C98_shipped",
    "Rsasl.C98_config",
    "Rsasl.C98_selects",
    "Rsasl.C98_test_panics",
    "Rsasl.C98_own",
    "Rsasl.C98_undocumented"
   ],
   "note": "C98_undocumented: X-RSASLTEST is not what its documentation describes (wrong side first, step is a todo!)."
  },
  {
   "property": "C99",
   "status": "proved",
   "theorems": [
    "Rsasl.C99_refines",
    "Rsasl.C99_picked",
    "Rsasl.C99_default",
    "Rsasl.C99_only_picks",
    "Rsasl.C99_honest",
    "Rsasl.C99_matches",
    "Rsasl.C99_scram_dishonest"
   ],
   "note": "Removes the restriction of C02/C05 to the three kinds of selectors of the crate (C99_refines)."
  },
  {
   "property": "C100",
   "status": "proved",
   "theorems": [
    "Rsasl.C100_config",
    "Rsasl.C100_credentials",
    "Rsasl.C100_credentials_config",
    "Rsasl.C100_sasl",
    "Rsasl.C100_session",
    "Rsasl.C100_line",
    "Rsasl.C100_shipped",
    "Rsasl.C100_authzid",
    "Rsasl.C100_channel_binding_untold",
    "Rsasl.C100_undefined"
   ],
   "note": "C100_channel_binding_untold: the field channel_binding is a constant (`cb: false, // FIXME!`)."
  },
  {
   "property": "C101",
   "status": "proved",
   "theorems": [
    "Rsasl.Gssapi.C101_client",
    "Rsasl.Gssapi.C101_client_begins",
    "Rsasl.Gssapi.C101_server",
    "Rsasl.Gssapi.C101_server_begins",
    "Rsasl.Gssapi.C101_server_offers",
    "Rsasl.Gssapi.C101_client_unique",
    "Rsasl.Gssapi.C101_begins_unique",
    "Rsasl.Gssapi.C101_offers_unique",
    "Rsasl.Gssapi.C101_server_unique",
    "Rsasl.Gssapi.C101_objection"
   ],
   "note": "the last step is C93; the loss of an incomplete context is finding 13."
  },
  {
   "property": "C102",
   "status": "proved",
   "theorems": [
    "Rsasl.SerdeJson.C102_reads",
    "Rsasl.SerdeJson.C102_one",
    "Rsasl.SerdeJson.C102_refuses",
    "Rsasl.SerdeJson.C102_unescaped",
    "Rsasl.SerdeJson.C102_escaped",
    "Rsasl.SerdeJson.C102_serde",
    "Rsasl.SerdeJson.C102_pieces",
    "Rsasl.SerdeJson.C102_client",
    "Rsasl.SerdeJson.C102_exchange"
   ],
   "note": "serde_json is not in the sandbox: its reader is modelled from knowledge of the crate; escaped errors not arriving is finding 16."
  },
  {
   "property": "C103",
   "status": "proved",
   "theorems": [
    "Rsasl.C103_plain",
    "Rsasl.C103_external",
    "Rsasl.C103_anonymous",
    "Rsasl.C103_login",
    "Rsasl.C103_xoauth2",
    "Rsasl.C103_oauthbearer"
   ],
   "note": "writers that fail are the subject of C22 and C92."
  },
  {
   "property": "C104",
   "status": "proved",
   "theorems": [
    "Rsasl.C104_client_first",
    "Rsasl.C104_client_second",
    "Rsasl.C104_client_last",
    "Rsasl.C104_server_first"
   ],
   "note": "messages that cannot be read are the subject of C76; so is the server's last step."
  },
  {
   "property": "C105",
   "status": "proved",
   "theorems": [
    "Rsasl.C105_validate",
    "Rsasl.C105_plain",
    "Rsasl.C105_login",
    "Rsasl.C105_external",
    "Rsasl.C105_anonymous",
    "Rsasl.C105_xoauth2",
    "Rsasl.C105_oauthbearer",
    "Rsasl.C105_errored",
    "Rsasl.C105_scram",
    "Rsasl.C105_finishes_after_error"
   ],
   "note": "messages a server refuses by itself are the subject of C87 and C76."
  },
  {
   "property": "C106",
   "status": "proved",
   "theorems": [
    "Rsasl.C106_agree",
    "Rsasl.C106_begins",
    "Rsasl.C106_heading",
    "Rsasl.C106_same_keys"
   ],
   "note": "with an odd name of a binding type the server may read another message than the client meant."
  },
  {
   "property": "C107",
   "status": "proved",
   "theorems": [
    "Rsasl.C107_external",
    "Rsasl.C107_anonymous",
    "Rsasl.C107_plain",
    "Rsasl.C107_login",
    "Rsasl.C107_xoauth2",
    "Rsasl.C107_oauthbearer"
   ],
   "note": "what OAuth servers read in messages with separators in the names is the subject of C14 and C52."
  },
  {
   "property": "C108",
   "status": "proved",
   "theorems": [
    "Rsasl.C108_action",
    "Rsasl.C108_xoauth2_client",
    "Rsasl.C108_oauthbearer_client",
    "Rsasl.C108_done",
    "Rsasl.C108_xoauth2",
    "Rsasl.C108_oauthbearer",
    "Rsasl.C108_apart"
   ],
   "note": "a reason that is empty doesn't get through (finding 21), nor does one that serde_json can't borrow (C60_false)."
  },
  {
   "property": "C109",
   "status": "proved",
   "theorems": [
    "Rsasl.Gssapi.C109_each_way",
    "Rsasl.Gssapi.C109_one_way"
   ],
   "note": "with longer handshakes the server loses its context (C41); which layer is in force then is C57."
  },
  {
   "property": "C110",
   "status": "proved",
   "theorems": [
    "Rsasl.C110_blame",
    "Rsasl.C110_missing",
    "Rsasl.C110_step64"
   ],
   "note": "A callback may return such an error itself, and is believed (an example shows it). A request answered more than once counts as not answered (C17)."
  },
  {
   "property": "C111",
   "status": "proved",
   "theorems": [
    "Rsasl.C111_ends",
    "Rsasl.C111_client"
   ],
   "note": "The server sends its signature before it asks validate, so a client can be finished although the server's step failed; an example shows it."
  },
  {
   "property": "C112",
   "status": "partial",
   "theorems": [
    "Rsasl.C112_words",
    "Rsasl.C112_utf8_words",
    "Rsasl.C112_debug_words",
    "Rsasl.C112_quoted",
    "Rsasl.C112_report_partial",
    "Rsasl.C112_oauth_false",
    "Rsasl.C112_oauth_words"
   ],
   "note": "False for OAUTHBEARER (C112_oauth_false): all its errors about a message read 'failed to parse message', and since SessionError::MechanismError has no source the cause is out of reach of Display. Proved for all other errors (C112_report_partial); the wording is proved for all."
  },
  {
   "property": "C113",
   "status": "proved",
   "theorems": [
    "Rsasl.C113_bounded",
    "Rsasl.C113_gssapi",
    "Rsasl.C113_login_again"
   ],
   "note": "The last term is needed: C113_login_again shows LOGIN write without end for a caller that goes on after failed writes."
  },
  {
   "property": "C114",
   "status": "partial",
   "theorems": [
    "Rsasl.C114_offer",
    "Rsasl.C114_pieces_partial",
    "Rsasl.C114_outcome_partial",
    "Rsasl.C114_early_partial",
    "Rsasl.C114_fresh_false",
    "Rsasl.C114_send_partial",
    "Rsasl.C114_send_false",
    "Rsasl.C114_recv_false",
    "Rsasl.C114_offer_false",
    "Rsasl.C114_server"
   ],
   "note": "The full claim is false: `fresh` is read before it is written (C114_fresh_false), a message that needs three calls of send arrives garbled (C114_send_false; C114_send_partial for two), a failing recv leads out of the buffer or passes for the end of a line (C114_recv_false), and a longer name counts as an offer (C114_offer_false; C114_offer says exactly when it goes on). What holds otherwise: C114_pieces_partial, C114_outcome_partial, C114_early_partial; C114_server: the interop server keeps the conditions at the start."
  },
  {
   "property": "C115",
   "status": "proved",
   "theorems": [
    "Rsasl.C115_bounded",
    "Rsasl.C115_gssapi",
    "Rsasl.C115_plain_again"
   ],
   "note": "The bounds are reached by PLAIN, XOAUTH2 and OAUTHBEARER (examples). For SCRAM the parts of the header count as if each were put in base64 on its own. PLAIN has no state, so its bound grows with the calls (C115_plain_again)."
  },
  {
   "property": "C116",
   "status": "partial",
   "theorems": [
    "Rsasl.C116_client_partial",
    "Rsasl.C116_server",
    "Rsasl.C116_json",
    "Rsasl.C116_step64",
    "Rsasl.C116_false",
    "Rsasl.C116_false_password"
   ],
   "note": "Proved in full for servers (C116_server; for OAUTHBEARER with serde_json, C116_json) and for step64. Clients: if passwords and, for SCRAM, the server's messages are text. Without that it fails: a SCRAM client repeats a server nonce with any bytes (C116_false), RFC 5802 has printable ASCII there; PLAIN and LOGIN send any password (C116_false_password)."
  },
  {
   "property": "C117",
   "status": "partial",
   "theorems": [
    "Rsasl.C117_plain_partial",
    "Rsasl.C117_plain_shown",
    "Rsasl.C117_false"
   ],
   "note": "PLAIN: proved for every preparation function. SCRAM: fails, nothing is prepared on either side (C117_false: the first example of RFC 4013, with a toy hash)."
  },
  {
   "property": "C118",
   "status": "proved",
   "theorems": [
    "Rsasl.C118_usable",
    "Rsasl.C118_same",
    "Rsasl.C118_again"
   ],
   "note": ""
  },
  {
   "property": "C119",
   "status": "partial",
   "theorems": [
    "Rsasl.C119_scram_partial",
    "Rsasl.C119_login",
    "Rsasl.C119_plain_partial",
    "Rsasl.C119_partial",
    "Rsasl.C119_false_name",
    "Rsasl.C119_false_spelling",
    "Rsasl.C119_false_absent"
   ],
   "note": "Proved for names without ',' and '=' that the preparation leaves alone, no AuthzId and an empty one being the same. The full claim fails: SCRAM shows names escaped (C119_false_name), PLAIN prepared (C119_false_spelling), and PLAIN shows an empty AuthzId where SCRAM and LOGIN show none (C119_false_absent)."
  },
  {
   "property": "C120",
   "status": "partial",
   "theorems": [
    "Rsasl.C120_cut_partial",
    "Rsasl.C120_false",
    "Rsasl.C120_more_partial",
    "Rsasl.C120_unknown",
    "Rsasl.C120_default"
   ],
   "note": "Proved for every preference that ranks mechanisms, among them the default one; that names nobody looks at change nothing is proved for every preference. The full claim fails for preferences that go round in circles (C120_false)."
  },
  {
   "property": "C121",
   "status": "partial",
   "theorems": [
    "Rsasl.C121_false",
    "Rsasl.C121_partial",
    "Rsasl.C121_bare_partial",
    "Rsasl.C121_plus_partial",
    "Rsasl.C121_shared",
    "Rsasl.C121_no_alarm"
   ],
   "note": "C121_partial is all that can happen. The full claim fails (C121_false): with channel binding enabled a client that is offered only SCRAM-SHA-256-PLUS starts SCRAM-SHA-256, which the server does not have; C121_bare_partial and C121_plus_partial are sufficient conditions. C121_no_alarm needs that the server's callback brings up no mechanism error itself."
  },
  {
   "property": "C122",
   "status": "proved",
   "theorems": [
    "Rsasl.C122_more",
    "Rsasl.C122_order",
    "Rsasl.C122_unused",
    "Rsasl.C122_server",
    "Rsasl.C122_tie"
   ],
   "note": "C122_tie: SCRAM-SHA-256 and SCRAM-SHA-512 have the same priority, so between them the order matters."
  },
  {
   "property": "C123",
   "status": "proved",
   "theorems": [
    "Rsasl.C123_server",
    "Rsasl.C123_client",
    "Rsasl.C123_plus_needed"
   ],
   "note": "C29 and C79 put together, from the altered list to the end. C123_plus_needed: a client that has enabled channel binding without registering the -PLUS mechanism (it is not in the default registry) says \"n\" when -PLUS is offered, and the server accepts it unbound. What each side has bound, its keys and what is stored are tied to its own channel and to what its callbacks answered (opening, OwnBinding, KeysFrom over the session's log)."
  },
  {
   "property": "C124",
   "status": "proved",
   "theorems": [
    "Rsasl.C124",
    "Rsasl.C124_never",
    "Rsasl.C124_accepted"
   ],
   "note": "Generalises C04_veto, where all mechanisms are rejected. The preference is modelled as a pure function."
  }
 ]
}