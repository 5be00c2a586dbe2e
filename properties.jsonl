{"id": "C01", "title": "Mechanism name parsing accepts exactly the SASL name alphabet", "statement": "Mechname::parse succeeds on a byte string exactly when it is non-empty and every byte is an upper-case ASCII letter, a digit, '-' or '_'; on success the name holds exactly the input bytes. On an empty input the error says 'too short'; otherwise the error names the index and the value of the first offending byte.", "quantifier": "all byte strings of any length", "why_tests_cant": "the set of byte strings is infinite; tests only sample a few valid and invalid names", "anchors": ["src/mechname.rs: Mechname::parse, is_invalid"]}
{"id": "C02", "title": "Client selection only picks enabled mechanisms that were offered", "statement": "When SASLClient::start_suggested succeeds, the session's mechanism is one the configuration enables and its name is in the list the caller passed in.", "quantifier": "all registries over the built-in mechanisms, all offered lists, channel binding enabled or not", "why_tests_cant": "registries and offers are unbounded lists and selection is driven by stateful per-mechanism selectors; tests fix a handful of offers", "anchors": ["src/sasl.rs: client_start_suggested", "src/config.rs: select_mechanism", "src/registry.rs: Registry::select, Selection, Matches", "src/mechanisms/scram/mechinfo.rs: ScramSelector1, ScramSelector256, ScramSelector512"]}
{"id": "C03", "title": "Default selection is by priority and does not depend on offer order", "statement": "With the default preference, the selected mechanism has a priority at least that of every other enabled and offered mechanism; among equal priorities the one registered last is taken. Reordering or repeating entries in the offered list does not change the outcome.", "quantifier": "all registries over the built-in mechanisms, all offered lists and all permutations / duplications of them", "why_tests_cant": "quantifies over all lists and all their permutations", "anchors": ["src/registry.rs: Registry::select", "src/callback.rs: SessionCallback::prefer", "src/mechanisms/*/mechinfo.rs"]}
{"id": "C04", "title": "Selection fails exactly when nothing is shared, and a user preference can veto everything", "statement": "With the default preference start_suggested on a client returns NoSharedMechanism exactly when no enabled mechanism matches the offer. A preference callback that always keeps the old choice makes every selection fail; one that always takes the new choice selects the last matching registered mechanism.", "quantifier": "all registries, all offered lists, all preference functions", "why_tests_cant": "preference callbacks are arbitrary user code", "anchors": ["src/registry.rs: Registry::select", "src/callback.rs: SessionCallback::prefer"]}
{"id": "C05", "title": "Server start succeeds exactly for configured server-capable mechanisms", "statement": "SASLServer::start_suggested(name) succeeds exactly when some configured mechanism has that name and a server implementation; the session then runs the first such mechanism in configuration order. Otherwise NoSharedMechanism is returned. get_available lists exactly the configured mechanisms that have a server implementation.", "quantifier": "all registries (including mechanisms with only one side) and all names", "why_tests_cant": "unbounded registries and names", "anchors": ["src/sasl.rs: server_start_suggested, get_available", "src/registry.rs: Registry::get_mechanisms"]}
{"id": "C06", "title": "Credential configurations restrict the mechanisms that can be used", "statement": "A client built with SASLConfig::with_credentials only ever selects a SCRAM-SHA (without -PLUS), PLAIN or LOGIN mechanism, and never LOGIN when an authorization id was given. Its callback answers AuthId, Password and (when given) AuthzId requests with exactly the given values and nothing else.", "quantifier": "all offered lists, all credential strings, all requested properties", "why_tests_cant": "a forbidden choice could hide behind any offer list", "anchors": ["src/config.rs: SASLConfig::with_credentials, CredentialsProvider", "src/registry.rs: Registry::credentials"]}
{"id": "C07", "title": "PLAIN round trip", "statement": "When a client session's first PLAIN step returns Ok and its output is given to a PLAIN server session, the server calls the user's validate callback exactly once, offering exactly the authorization id the client was given (empty if none), the SASLprep'd authentication id, and the SASLprep'd password (verbatim if not UTF-8), provided SASLprep accepts them.", "quantifier": "all authorization ids, authentication ids and passwords without NUL (authid and password non-empty), all SASLprep functions, all writers that make progress", "why_tests_cant": "strings are unbounded; the interesting cases are embedded separators, empty fields and non-UTF-8 passwords", "anchors": ["src/mechanisms/plain/client.rs: Plain::step", "src/mechanisms/plain/server.rs: Plain::step"]}
{"id": "C08", "title": "PLAIN client never emits an ambiguous message", "statement": "Whenever the PLAIN client step returns Ok, the bytes it wrote are authzid NUL authid NUL password with all three NUL-free and authid and password non-empty, whatever the callback did and however the writer splits writes; so a receiver splitting on NUL recovers exactly the three values.", "quantifier": "all user callbacks (any sequence of request operations), all writers with short writes and interruptions", "why_tests_cant": "user callbacks are arbitrary programs that may swallow errors or answer twice", "anchors": ["src/mechanisms/plain/client.rs: Plain::step", "src/session.rs: MechanismData::maybe_need_with, need_with"]}
{"id": "C09", "title": "PLAIN server accepts exactly the three-field messages", "statement": "The PLAIN server calls validate for an input exactly when the input splits at NUL into exactly three parts, the first two valid UTF-8, authid and password non-empty and accepted by SASLprep; the offered values are those parts. For every other input the step returns an error and validate is not called.", "quantifier": "all input byte strings, all SASLprep functions that map the empty string to nothing but itself", "why_tests_cant": "attacker-controlled unbounded input", "anchors": ["src/mechanisms/plain/server.rs: Plain::step"]}
{"id": "C10", "title": "LOGIN round trip and strict sequence", "statement": "A LOGIN client session and a LOGIN server session connected to each other run server prompt, user name, prompt, password; the server calls validate once offering exactly the client's AuthId and Password; further steps on either side return MechanismDone.", "quantifier": "all user names and passwords, all writers that make progress", "why_tests_cant": "unbounded strings and multi-step state", "anchors": ["src/mechanisms/login/client.rs: Login::step", "src/mechanisms/login/server.rs: Login::step"]}
{"id": "C11", "title": "EXTERNAL and ANONYMOUS round trip", "statement": "The value given by the client's callback (AuthzId for EXTERNAL, AnonymousToken for ANONYMOUS; empty if none) is exactly the value offered to the server's validate callback; non-UTF-8 input is rejected without calling validate.", "quantifier": "all strings, all input byte strings", "why_tests_cant": "unbounded strings", "anchors": ["src/mechanisms/external/client.rs", "src/mechanisms/external/server.rs", "src/mechanisms/anonymous/client.rs", "src/mechanisms/anonymous/server.rs"]}
{"id": "C12", "title": "XOAUTH2 round trip", "statement": "The AuthId and token given to the XOAUTH2 client are exactly the ones the XOAUTH2 server offers to its callbacks.", "quantifier": "all AuthId strings and all tokens", "why_tests_cant": "depends on how separators inside the values are treated, for unbounded strings", "anchors": ["src/mechanisms/xoauth2/client.rs", "src/mechanisms/xoauth2/server.rs"]}
{"id": "C13", "title": "XOAUTH2 error reporting", "statement": "If the server callback answers with an error message the server sends exactly that message, reports Running, and the next step finishes; a client receiving a non-empty response hands exactly that text to its callback as an action and finishes asking to send an empty response; a client receiving an empty or absent response finishes. No third outcome exists.", "quantifier": "all error texts, all responses, all callbacks", "why_tests_cant": "unbounded responses and arbitrary callbacks", "anchors": ["src/mechanisms/xoauth2/client.rs: step", "src/mechanisms/xoauth2/server.rs: step"]}
{"id": "C14", "title": "OAUTHBEARER round trip", "statement": "The authorization id, token and key/value pairs given to the OAUTHBEARER client are exactly the ones the OAUTHBEARER server offers to its callbacks.", "quantifier": "all authorization ids, tokens and key/value lists", "why_tests_cant": "depends on separators inside the values, for unbounded strings and lists", "anchors": ["src/mechanisms/oauthbearer/client.rs", "src/mechanisms/oauthbearer/parser.rs", "src/mechanisms/oauthbearer/server.rs"]}
{"id": "C15", "title": "Server finishing implies validation happened", "statement": "When a server session's step returns Finished, the user's validate callback has been called exactly once during the session, and it has not been called in a session that so far only returned Running.", "quantifier": "all input histories, all callbacks, all writers, each built-in server mechanism", "why_tests_cant": "a history property over unbounded sequences of steps with arbitrary peer data", "anchors": ["src/mechanism.rs: Authentication::step contract", "src/session.rs: MechanismData::validate", "src/mechanisms/*/server.rs"]}
{"id": "C16", "title": "Validation value: first matching value wins, read once", "statement": "Session::validation returns the first value the validate callback set under the protocol's Validation type during the session (values of other types are ignored and a `with` closure is evaluated only when its value would be used), and returns None when asked again.", "quantifier": "all sequences of finalize / with calls by arbitrary validate callbacks over any number of steps", "why_tests_cant": "user callbacks are arbitrary", "anchors": ["src/validate.rs: Validate::finalize, Validate::with", "src/session.rs: Session::validation, Session::step"]}
{"id": "C17", "title": "A satisfiable request is answered at most once with the first answer", "statement": "During one property request the mechanism consumes at most one answer. Answers for other properties have no effect. Once an answer was given the request stays answered with that first value whatever the callback does next, and later satisfy calls return Ok without evaluating their closure.", "quantifier": "all callback programs over satisfy / satisfy_with / get_action / is, all properties", "why_tests_cant": "callbacks are arbitrary programs; type erasure makes the wrong-property case easy to get wrong", "anchors": ["src/callback.rs: Request::satisfy, Request::satisfy_with, ClosureCR"]}
{"id": "C18", "title": "Required and optional requests report exactly the documented outcomes", "statement": "need_with returns the consumed answer, NoCallback when no answer was given, and the callback's error otherwise; maybe_need_with turns 'no value' into None and forwards every other callback error. An early-return signal is never surfaced to the protocol.", "quantifier": "all callback programs and all consuming closures", "why_tests_cant": "arbitrary user code", "anchors": ["src/session.rs: MechanismData::need_with, maybe_need_with, callback, action"]}
{"id": "C19", "title": "Actionable requests deliver the value at most once", "statement": "An action request hands its value to the callback at most once, only under the right property, and the request succeeds exactly when the value was taken (NoCallback otherwise, or the callback's own error).", "quantifier": "all callback programs, all properties and values", "why_tests_cant": "arbitrary user code", "anchors": ["src/session.rs: MechanismData::action", "src/callback.rs: Request::get_action"]}
{"id": "C20", "title": "Context lookup returns the first provided value of the asked property", "statement": "Context::get_ref::<P> returns the first value provided for P in provider order (left before right in a combined provider), and None if none is provided; a value of another property is never returned.", "quantifier": "all finite provider compositions and all properties", "why_tests_cant": "unbounded compositions", "anchors": ["src/context.rs: Context::get_ref, Demand::provide_ref, And, ThisProvider"]}
{"id": "C21", "title": "Vectored writer delivers every byte in order under any short-write schedule", "statement": "Whatever positive amounts the underlying writer accepts per call, writing a list of buffers delivers exactly their concatenation once and in order, returns the number of bytes, and never panics; if the writer fails or stops accepting, what was delivered is a prefix and resuming delivers exactly the rest.", "quantifier": "all buffer lists (including empty buffers), all sequences of accept amounts and errors", "why_tests_cant": "there are unboundedly many ways to split a write across buffers", "anchors": ["src/vectored_io.rs: VectoredWriter::write_all_vectored, write_vectored_inner"]}
{"id": "C22", "title": "A step that returns Ok has written its whole message", "statement": "When Session::step returns Ok, the complete mechanism message has been accepted by the writer, however it splits writes.", "quantifier": "all writers (short writes, zero writes, interruptions, errors), each built-in mechanism", "why_tests_cant": "writer behaviours are arbitrary schedules", "anchors": ["src/vectored_io.rs: write_all_vectored", "src/mechanisms/*/client.rs", "src/mechanisms/*/server.rs"]}
{"id": "C23", "title": "step64 is step behind base64", "statement": "step64 on base64 of some input behaves exactly as step on that input with the output base64 encoded; input that is not canonical base64 gives a Base64 error without touching the mechanism or the output.", "quantifier": "all inputs, all mechanisms and states", "why_tests_cant": "unbounded input and arbitrary inner mechanism", "anchors": ["src/session.rs: Session::step64"]}
{"id": "C24", "title": "Base64 transport is lossless and canonical", "statement": "Decoding the encoding of any byte string returns it; and any text the decoder accepts is the unique encoding of what it decodes to, so two different accepted texts never stand for the same bytes.", "quantifier": "all byte strings and all texts", "why_tests_cant": "unbounded input", "anchors": ["src/session.rs: step64", "src/mechanisms/scram/client.rs", "src/mechanisms/scram/server.rs"]}
{"id": "C25", "title": "SCRAM client finishes only after the server proved knowledge of the key", "statement": "A SCRAM client session returns Finished only if the last input carried a verifier equal to the server signature computed from the server key and the exact messages of this session; in every other case the step is an error or panic and the session never reports Finished.", "quantifier": "all server behaviours (arbitrary messages, any order and number), all callbacks, all hash functions", "why_tests_cant": "adversarial peer over unbounded message histories", "anchors": ["src/mechanisms/scram/client.rs: WaitingServerFinal::handle_server_final, ScramClient::step"]}
{"id": "C26", "title": "SCRAM server validates only a proven client", "statement": "A SCRAM server session calls validate only if the client's last message repeated the session's full nonce, carried channel-binding data equal to the gs2 header plus the server's own binding data, and a proof whose key hashes to the stored key for the signature over the exact messages of this session.", "quantifier": "all client behaviours over unbounded histories, all callbacks, all hash functions, all nonces", "why_tests_cant": "adversarial peer over unbounded message histories", "anchors": ["src/mechanisms/scram/server.rs: handle_client_final, ScramServer::step", "src/mechanisms/scram/tools.rs: compute_signatures"]}
{"id": "C27", "title": "SCRAM exchange completes between a matching client and server", "statement": "A SCRAM client with a password and a SCRAM server holding the stored keys derived from the same password, salt and iteration count always complete: Running, Running, Running, Finished, Finished, with the server validating once and the client verifying the server.", "quantifier": "all user names, authorization ids, passwords, salts, iteration counts, nonces, hash functions, channel binding modes, and writers that make progress", "why_tests_cant": "needs agreement of two independently built transcripts for all inputs", "anchors": ["src/mechanisms/scram/client.rs", "src/mechanisms/scram/server.rs", "src/mechanisms/scram/parser.rs", "src/mechanisms/scram/tools.rs"]}
{"id": "C28", "title": "SCRAM client checks the server's parameters before using secrets", "statement": "The client asks its callback for a password (or cached or salted keys) only if the server's nonce strictly extends the client's own, the iteration count is a number between 1 and 2^32-1 and the salt is base64; otherwise the step fails and no proof is sent.", "quantifier": "all server-first messages, all callbacks", "why_tests_cant": "attacker-controlled unbounded input", "anchors": ["src/mechanisms/scram/client.rs: WaitingServerFirst::handle_server_first"]}
{"id": "C29", "title": "Channel-binding downgrade is detected", "statement": "If client and server both have channel binding enabled but the server's -PLUS offer is removed on the way, the client tells the server so in its first message and the server refuses with an error before validating. A client without channel binding, or one that saw a -PLUS offer, never raises that flag.", "quantifier": "all offered lists with and without the -PLUS names, all client and server states after selection", "why_tests_cant": "combines selection over unbounded offers with the exchange", "anchors": ["src/mechanisms/scram/mechinfo.rs: selectors and finalize", "src/mechanisms/scram/client.rs: CbSupport", "src/mechanisms/scram/server.rs: handle_client_first"]}
{"id": "C30", "title": "A -PLUS session always uses channel binding", "statement": "When a server session for a SCRAM -PLUS mechanism calls validate, the client's proof covered channel binding data known to the server.", "quantifier": "all client messages for all -PLUS server sessions", "why_tests_cant": "a security property over all peer messages", "anchors": ["src/mechanisms/scram/server.rs: handle_client_first, ScramServer::new_plus"]}
{"id": "C31", "title": "Tampered channel binding is rejected", "statement": "If the client announced a channel binding type, the server validates only if the binding data covered by the client's proof equals the server's own data for that type; if the server has no such data the exchange fails with MissingChannelBindingData.", "quantifier": "all binding names and data on both sides, all client messages", "why_tests_cant": "a security property over all data pairs", "anchors": ["src/mechanisms/scram/server.rs: handle_client_first, handle_client_final", "src/session.rs: need_cb_data"]}
{"id": "C32", "title": "SCRAM name escaping is safe and unambiguous", "statement": "Escaping a user name succeeds exactly when it is non-empty and NUL-free, the result contains no ',' and only '=2C'/'=3D' uses of '=', and different names have different escapes.", "quantifier": "all strings", "why_tests_cant": "unbounded strings", "anchors": ["src/mechanisms/scram/parser.rs: SaslName::escape, SaslEscapeState"]}
{"id": "C33", "title": "SCRAM server sees the user name the client was given", "statement": "The AuthId and AuthzId the SCRAM server offers to its callbacks are the ones the client's callback supplied.", "quantifier": "all user names and authorization ids", "why_tests_cant": "needs escape/unescape agreement for all strings", "anchors": ["src/mechanisms/scram/parser.rs: SaslName::unescape, ClientFirstMessage::parse", "src/mechanisms/scram/server.rs: handle_client_first"]}
{"id": "C34", "title": "SCRAM messages parse back to what was rendered", "statement": "Each SCRAM message rendered by one side is parsed by the other side's parser to exactly the same fields.", "quantifier": "all field values the senders can produce", "why_tests_cant": "unbounded fields", "anchors": ["src/mechanisms/scram/parser.rs: ClientFirstMessage, ServerFirst, ClientFinal, ServerFinal, ServerErrorValue, GS2CBindFlag"]}
{"id": "C35", "title": "No peer input crashes a session", "statement": "No sequence of peer messages makes Session::step panic on a session that has not yet finished or failed.", "quantifier": "all byte strings, all sequences of them, each built-in mechanism, all callbacks", "why_tests_cant": "crashes hide in particular short or malformed inputs; fuzzing only samples", "anchors": ["src/mechanisms/scram/parser.rs", "src/mechanisms/*/client.rs", "src/mechanisms/*/server.rs"]}
{"id": "C36", "title": "Missing input leaves the session usable", "statement": "When a step returns InputDataRequired the session state is unchanged: a following step with data behaves as if the failed call never happened.", "quantifier": "each built-in mechanism in each reachable state, all following inputs", "why_tests_cant": "relates two histories for every continuation", "anchors": ["src/mechanism.rs: Authentication::step contract", "src/mechanisms/*/client.rs", "src/mechanisms/*/server.rs"]}
{"id": "C37", "title": "Every exchange terminates", "statement": "Each built-in non-GSSAPI mechanism returns Running at most twice in a session that has not errored; no peer or callback can keep a session running for ever.", "quantifier": "all input sequences, all callbacks, all writers", "why_tests_cant": "a liveness property over unbounded histories", "anchors": ["src/mechanisms/*/client.rs", "src/mechanisms/*/server.rs"]}
{"id": "C38", "title": "Security layer calls are consistent", "statement": "Session::encode and decode return NoSecurityLayer exactly when has_security_layer is false (up to errors of the layer itself); mechanisms other than GSSAPI never have one; with GSSAPI a layer exists only after the session finished.", "quantifier": "all mechanisms, all states reachable by any input sequence", "why_tests_cant": "a state invariant over unbounded histories", "anchors": ["src/mechanism.rs: Authentication::encode, decode, has_security_layer", "src/mechanisms/gssapi/client.rs", "src/mechanisms/gssapi/server.rs"]}
{"id": "C39", "title": "GSSAPI client negotiates only an acceptable layer", "statement": "The security layer a GSSAPI client session ends up with was both offered by the server and acceptable to the user, and is the strongest such layer.", "quantifier": "all server layer offers, all acceptable sets, all GSSAPI contexts", "why_tests_cant": "adversarial peer and abstract security context", "anchors": ["src/mechanisms/gssapi/client.rs: step", "src/mechanisms/gssapi/properties.rs: SecurityLayer"]}
{"id": "C40", "title": "GSSAPI server installs only a layer it offered", "statement": "The security layer a GSSAPI server session ends up with is one the server's callback allowed.", "quantifier": "all client layer choices, all allowed sets, all GSSAPI contexts", "why_tests_cant": "adversarial peer and abstract security context", "anchors": ["src/mechanisms/gssapi/server.rs: step"]}
{"id": "C41", "title": "GSSAPI server supports multi-round contexts", "statement": "If the security context needs several tokens, the server keeps the context between steps and completes when the context does.", "quantifier": "all security contexts and token sequences", "why_tests_cant": "histories of unbounded length", "anchors": ["src/mechanisms/gssapi/server.rs: step"]}
{"id": "C42", "title": "SCRAM nonces are always well formed", "statement": "Every nonce the library generates has the requested length and consists only of printable non-comma characters, so it survives the peer's parser unchanged.", "quantifier": "all random streams and lengths", "why_tests_cant": "randomised output", "anchors": ["src/mechanisms/scram/tools.rs: generate_nonce, PRINTABLE"]}
{"id": "C43", "title": "Channel binding data source precedence", "statement": "Channel binding data comes from the protocol implementation if it has data for the name; otherwise the user callback is asked, with the binding name visible in its context; if neither answers the request fails with MissingChannelBindingData naming the type.", "quantifier": "all binding names, all protocol-side and user-side callbacks", "why_tests_cant": "arbitrary user code", "anchors": ["src/session.rs: maybe_need_cb_data, need_cb_data", "src/channel_bindings.rs: ThisCb, NoChannelBindings"]}
{"id": "C44", "title": "SCRAM never sends the password", "statement": "What the SCRAM client sends depends on the password only through the salted password derived from it: two passwords with the same derived key produce byte-identical output, outcome and states in every session.", "quantifier": "all pairs of passwords, all server behaviours, all hash functions", "why_tests_cant": "a two-run (non-interference) property", "anchors": ["src/mechanisms/scram/client.rs: handle_server_first", "src/mechanisms/scram/tools.rs: hash_password, derive_keys"]}
{"id": "C45", "title": "Cached keys, salted password and password are interchangeable and tried in that order", "statement": "Given the cached keys, the salted password or the plain password the SCRAM client sends the same client-final message; cached keys are asked first, then the salted password, then the password, and later sources are asked only if earlier ones gave nothing.", "quantifier": "all passwords, salts, iteration counts, server messages", "why_tests_cant": "relates runs with different callbacks", "anchors": ["src/mechanisms/scram/client.rs: handle_server_first"]}
{"id": "C46", "title": "Unknown users never validate", "statement": "If the server callback supplies no stored password for a user, the server still runs the exchange with a salt and iteration count, never calls validate, and ends by sending an unknown-user error.", "quantifier": "all client behaviours, all callbacks that decline", "why_tests_cant": "adversarial peer over histories", "anchors": ["src/mechanisms/scram/server.rs: handle_client_first, handle_client_final"]}
{"id": "C47", "title": "Sessions sharing a configuration do not influence each other", "statement": "Running two sessions of one configuration with their steps interleaved in any order gives each session the same results, outputs and validation values as running it alone.", "quantifier": "all interleavings, all inputs, all mechanisms, all callbacks without own mutable state", "why_tests_cant": "quantifies over schedules", "anchors": ["src/session.rs: Session", "src/sasl.rs: Sasl", "src/config.rs: SASLConfig"]}
{"id": "C48", "title": "are_we_first is truthful", "statement": "When are_we_first is true, the session's first step without input never fails with InputDataRequired; when it is false for the built-in server mechanisms, the first step without input is refused (InputDataRequired) or treated as an empty message, and never reports Running.", "quantifier": "each built-in mechanism and side, all callbacks, all writers", "why_tests_cant": "all callbacks are arbitrary", "anchors": ["src/session.rs: are_we_first", "src/mechanisms/*/mechinfo.rs"]}
{"id": "C49", "title": "SCRAM error values survive the wire", "statement": "Every error value the server sends in its final message is reported to the client's caller as the same error value.", "quantifier": "all error values including unknown ones", "why_tests_cant": "the 'other' case carries an arbitrary string", "anchors": ["src/mechanisms/scram/parser.rs: ServerErrorValue, ServerFinal"]}
{"id": "C50", "title": "Malformed stored keys are refused", "statement": "If the server callback supplies a stored password whose stored key or server key does not have the hash's output length, the step fails and the session never validates.", "quantifier": "all stored password records, all client messages", "why_tests_cant": "arbitrary callback-provided data", "anchors": ["src/mechanisms/scram/server.rs: handle_client_first"]}
{"id": "C51", "title": "Cached SCRAM keys are only released after the server was verified", "statement": "The client hands the derived keys to the callback for caching only after the server's verifier was checked, and at most once per session, with the salt and iteration count of this session visible in the context.", "quantifier": "all server behaviours, all callbacks, all histories", "why_tests_cant": "ordering property over adversarial histories", "anchors": ["src/mechanisms/scram/client.rs: handle_server_final"]}
{"id": "C52", "title": "OAUTHBEARER server accepts exactly the well-formed messages without channel binding", "statement": "The OAUTHBEARER parser accepts a message if and only if it consists of a gs2 header for \"no channel binding\", items separated by 0x01 of which at least one is an auth item, and the closing double 0x01; it then yields exactly the authzid, token and fields written there, and rejects everything else with an error.", "quantifier": "all byte strings", "why_tests_cant": "arbitrary attacker-controlled input", "anchors": ["src/mechanisms/oauthbearer/parser.rs: OAuthBearerMsg::parse", "src/mechanisms/oauthbearer/server.rs: OAuthBearer::step"]}
{"id": "C53", "title": "SCRAM messages are accepted exactly as RFC 5802 defines them", "statement": "Each SCRAM message parser accepts an input exactly if it is a message of RFC 5802 section 7 without mandatory extensions, optional extensions being ignored, and yields the fields that stand in it.", "quantifier": "all byte strings as client-first, server-first, client-final and server-final message", "why_tests_cant": "The accepted language is infinite and the disagreements are in corners nobody writes a vector for: an empty nonce, an unmarked authzid, an optional extension.", "anchors": ["src/mechanisms/scram/parser.rs:250-290", "src/mechanisms/scram/parser.rs:369-410", "src/mechanisms/scram/parser.rs:444-481", "src/mechanisms/scram/parser.rs:554-580"]}
{"id": "C54", "title": "Mandatory SCRAM extensions are refused", "statement": "A message is refused with UnknownMandatoryExtensions exactly if an `m=` attribute stands in the place RFC 5802 reserves for it and everything before it is well formed; the step that reads it writes nothing and asks the callback nothing.", "quantifier": "all byte strings, all states waiting for a message with a place for mandatory extensions, all callbacks", "why_tests_cant": "Ignoring a mandatory extension is a silent downgrade; a test can show one refused message, not that every one is and that nothing else is refused for this reason.", "anchors": ["src/mechanisms/scram/parser.rs:264-268", "src/mechanisms/scram/parser.rs:380-384", "src/mechanisms/scram/parser.rs:461-470"]}
{"id": "C55", "title": "Exactly these SCRAM messages panic", "statement": "The inputs on which the SCRAM parsers index out of range are exactly those with an attribute shorter than two bytes where one is read (or an empty one where the message should have ended), after a well-formed beginning; the step then panics in the session that reads it.", "quantifier": "all byte strings, all states waiting for a message, all callbacks", "why_tests_cant": "A fuzzer finds some of them; only the exact set tells which inputs a caller has to filter and that there are no others.", "anchors": ["src/mechanisms/scram/parser.rs:250-290", "src/mechanisms/scram/parser.rs:369-410", "src/mechanisms/scram/parser.rs:444-481", "src/mechanisms/scram/parser.rs:554-580"]}
{"id": "C56", "title": "Messages through a GSSAPI security layer arrive unchanged", "statement": "After a GSSAPI authentication that negotiated a layer, whatever one side passes to encode comes out of the other side's decode unchanged, for any number of messages in either direction; every encode and decode goes through the context as the previous one left it, encrypting exactly if confidentiality was negotiated.", "quantifier": "all GSS-API libraries whose two ends undo each other's wrapping, all sequences of messages in both directions", "why_tests_cant": "the context changes with every message, so an error in keeping it only shows after arbitrarily long conversations", "anchors": ["src/mechanisms/gssapi/client.rs: encode, decode", "src/mechanisms/gssapi/server.rs: encode, decode", "src/session.rs: Session::encode, Session::decode"]}
{"id": "C57", "title": "GSSAPI client and server finish with the same layer", "statement": "A GSSAPI client and server with connected contexts, at least one layer that both users accept and the server's context supports, both finish; both have the same layer in force, and it is the strongest such layer.", "quantifier": "all libraries with one token in each direction or a single token, all sets of acceptable layers on both sides, all context flags", "why_tests_cant": "the negotiation depends on two sets of layers and on flags of two contexts; a test covers one combination with one library", "anchors": ["src/mechanisms/gssapi/client.rs: step", "src/mechanisms/gssapi/server.rs: step"]}
{"id": "C58", "title": "GSSAPI client stops when the context supports no acceptable layer", "statement": "When its context gets complete, a GSSAPI client whose user named the acceptable layers goes on exactly if the context supports at least one of them, and fails with BadContext otherwise.", "quantifier": "all sets of layers, all context flags, all histories before", "why_tests_cant": "eight sets times eight flag combinations, in every state the session can be in", "anchors": ["src/mechanisms/gssapi/client.rs: step (Pending arm)"]}
{"id": "C59", "title": "GSSAPI client uses only layers its context supports", "statement": "When a GSSAPI client finishes, the layer in force is supported by its context.", "quantifier": "all libraries, callbacks, server messages and histories", "why_tests_cant": "the server may name any set of layers; the context's flags come from a library", "anchors": ["src/mechanisms/gssapi/client.rs: step (Last arm)"]}
{"id": "C60", "title": "OAUTHBEARER errors reach the client's callback", "statement": "The error an OAUTHBEARER server's callback gives for a refused token is sent as JSON, and a client that receives this text hands exactly that error to its callback; a client that can't read the text fails.", "quantifier": "all errors, messages, callbacks and histories", "why_tests_cant": "the texts of errors are unbounded, and the existing tests use none that needs an escape sequence", "anchors": ["src/mechanisms/oauthbearer/server.rs: step", "src/mechanisms/oauthbearer/client.rs: step", "src/mechanisms/oauthbearer/properties.rs: OAuthBearerError"]}
{"id": "C61", "title": "A SCRAM client's first message says what its callbacks gave", "statement": "The first message of a SCRAM client holds the names its callback gave, escaped, a fresh nonce and the channel binding type for which data was found, and the client binds to exactly this data later.", "quantifier": "all callbacks, modes, generators, writers and histories", "why_tests_cant": "tests use a few fixed names and callbacks that answer one property each", "anchors": ["src/mechanisms/scram/client.rs: send_client_first", "src/session.rs: maybe_need_cb_data"]}
{"id": "C62", "title": "Static credentials work from the list of mechanisms to the end", "statement": "A client made with SASLConfig::with_credentials, offered the mechanism list of a server whose application knows the user, picks the server's best mechanism for credentials, the server starts the same, both finish, and the server's application gets its validation value; if the server has no such mechanism the client says so.", "quantifier": "all server configurations over the mechanisms of the crate, credentials, salts, counts, generators and cooperating writers", "why_tests_cant": "tests try single mechanisms with one user and one password", "anchors": ["src/config.rs: with_credentials", "src/sasl.rs: client_start_suggested, server_start_suggested, get_available", "src/registry.rs: credentials", "src/mechanisms/scram/mechinfo.rs", "src/session.rs"]}
{"id": "C63", "title": "The example servers do what their authors expect", "statement": "For every PLAIN message the server of examples/server_plain.rs finishes with the verdict its author expects (accepted, bad authzid, wrong password or no such user); the server of examples/server_scram.rs accepts a client that has the password, and gives a verdict only to clients that prove to know the stored key.", "quantifier": "all PLAIN messages, SASLprep functions, hash functions, salts, passwords, histories and writers", "why_tests_cant": "the examples try five messages and are not run by the tests", "anchors": ["examples/server_plain.rs", "examples/server_scram.rs", "src/mechanisms/plain/server.rs: PlainProvider", "src/mechanisms/scram/server.rs"]}
{"id": "C64", "title": "Validate is always shown the same set of properties", "statement": "In all sessions of a server mechanism the provider passed to validate offers the same set of properties (the contract of Authentication::step); a property that may be absent has a value standing for that.", "quantifier": "all server mechanisms, callbacks, sequences of calls, inputs and writers", "why_tests_cant": "a statement about all pairs of sessions", "anchors": ["src/mechanism.rs:56-59", "src/mechanisms/*/server.rs: Provider impls"]}
{"id": "C65", "title": "Mechanisms contact the callback about the documented properties only", "statement": "Whatever calls are made on a session, each request, notification and validation it makes is one listed for its mechanism and side, with exactly the listed properties on offer; in particular a client of a mechanism without -PLUS never asks for channel bindings, and a client never calls validate.", "quantifier": "all built-in mechanisms, both sides, all callbacks, sequences of calls (step, step64, encode, decode, validation), inputs and writers", "why_tests_cant": "says what never happens in any session", "anchors": ["src/mechanisms/mod.rs:28-215", "src/session.rs: MechanismData", "src/mechanisms/*/client.rs", "src/mechanisms/*/server.rs"]}
{"id": "C66", "title": "The default preference takes the strongest mechanism", "statement": "Between the crate's mechanisms, registered in any subset and order, the default preference never runs a plaintext mechanism if a SCRAM one can be used, nor SHA-1 if a SHA-2 one can, nor a mechanism without channel binding if its -PLUS variant can; static credentials are used in the documented order; each mechanism is registered under the name, first side and implementations its specification asks for.", "quantifier": "all configurations over the crate's mechanisms, all offers", "why_tests_cant": "no test covers all subsets, orders and offers", "anchors": ["src/registry.rs:230-267", "src/callback.rs:107-113", "src/config.rs:117-130", "src/mechanisms/*/mechinfo.rs"]}
{"id": "C67", "title": "A call ends only with the errors of its mechanism", "statement": "After any calls, an error of a step is one from the table of the mechanism and side, or one the user's callback returned. MutualAuthenticationFailed comes only from SCRAM clients; InputDataRequired only from calls without input; the early return of satisfy never leaves a step, NoValue only where an XOAUTH2 or OAUTHBEARER client tells its callback of an error; NoValidate, NoSecurityLayer, Boxed and Base64 come from no step; an error of kind Outcome is a SCRAM server's refusal; encode and decode give only NoSecurityLayer or errors of the GSSAPI library and the writer.", "quantifier": "all mechanisms and sides, all call sequences, inputs, callbacks, writers", "why_tests_cant": "the claim is about all errors in all states", "anchors": ["src/error.rs:12-119", "src/context.rs:150-260", "src/session.rs:180-330", "src/mechanisms/*/client.rs", "src/mechanisms/*/server.rs"]}
{"id": "C68", "title": "The state a step returns tells whether there is a message", "statement": "If a step returns Finished(No), it wrote nothing. Each mechanism and side returns the states, with or without a message, from its table; the SCRAM, XOAUTH2, OAUTHBEARER clients and the SCRAM and LOGIN servers never return Running with an empty message, if the writer takes all it is given. A caller who sends what was written exactly when has_sent_message says so loses no byte.", "quantifier": "all mechanisms, sides, states, inputs, callbacks, writers", "why_tests_cant": "the claim is about every step of every session", "anchors": ["src/session.rs:436-498", "src/mechanisms/*/client.rs", "src/mechanisms/*/server.rs"]}
{"id": "C69", "title": "A call of step without input does not go on", "statement": "Once a side has begun, or at once if it does not go first, a call of step without input does not return Running, whatever calls were made before; while the exchange is going on it returns an error.", "quantifier": "all mechanisms, sides, callbacks, sequences of calls, writers", "why_tests_cant": "the claim is about every state of every session", "anchors": ["src/mechanism.rs:34-51", "src/mechanisms/*/client.rs", "src/mechanisms/*/server.rs"]}
{"id": "C70", "title": "The casts behind Request, Context and Validate are safe and tell types apart", "statement": "A cast of a type-erased value succeeds exactly for the type the value has, so no callback, provider or validation can make the library take a value for one of another type. A satisfiable request can only be answered through its property, an actionable one only be taken through its property; a demand for a reference takes the first fitting value that is lent, and none that is lent for changing, and the other way round; a Validate only takes values of the session's validation type.", "quantifier": "all properties, callbacks, providers, validate callbacks, contents; any TypeId::of that gives different types different ids", "why_tests_cant": "the casts are unchecked pointer casts, chosen by programs of other crates", "anchors": ["src/typed.rs:12-81", "src/context.rs:72-205", "src/callback.rs:266-503", "src/validate.rs:107-164", "src/session.rs:312-376"]}
{"id": "C71", "title": "Channel bindings end to end", "statement": "A protocol crate that knows the data of one channel binding hands it to both ends. A client and server that share a SCRAM -PLUS mechanism on a SHA-2 hash, with channel binding enabled, start the two sides of one and authenticate each other with that binding. If the two ends have different data nothing is validated and the client ends with the server's error; if the data is for a binding the client does not use, the client's first step ends with an error that names what is missing.", "quantifier": "all configurations of shipped mechanisms, binding names and data, callbacks, credentials, random numbers, writers that take everything", "why_tests_cant": "the crate's own test asks for two names on a PLAIN session; nothing runs a -PLUS exchange between two sessions, let alone one with differing bindings", "anchors": ["src/channel_bindings.rs:1-88", "src/sasl.rs:57-175", "src/session.rs:378-408", "src/mechanisms/scram/client.rs:154-236", "src/mechanisms/scram/server.rs:280-378", "src/mechanisms/scram/mechinfo.rs"]}
{"id": "C72", "title": "Nobody is left waiting", "statement": "A client and a server that have agreed on a mechanism other than GSSAPI are driven by the documented loop: what a step says is handed to the other side as long as has_sent_message tells so, and a side is called again only while is_running. After at most five steps a step has failed, or both sides have finished and every message has arrived; no side waits for a message that does not come and no message is left over. With XOAUTH2 and OAUTHBEARER the client may be left waiting, since a server that accepts the token has nothing to say, and the server's application has to give a reason when it refuses.", "quantifier": "all configurations of shipped mechanisms, offers, callbacks, random numbers, sequences of writer behaviour", "why_tests_cant": "who has to speak next depends on both ends' states; tests step one end by hand with known messages and never notice a result that leaves the other side hanging", "anchors": ["src/lib.rs:120-180", "src/session.rs:436-498", "src/mechanisms/login/server.rs:43-96", "src/mechanisms/scram/client.rs:458-490", "src/mechanisms/scram/server.rs:426-455", "src/mechanisms/xoauth2/client.rs:46-96", "src/mechanisms/xoauth2/server.rs:63-119", "src/mechanisms/oauthbearer/server.rs:43-83"]}
{"id": "C73", "title": "step64 delivers the message", "statement": "When step64 returns Ok the outer writer has been given the whole message in base64, whatever short writes, interruptions and errors it answered with. In any case what it has been given is a prefix of the base64 text of what the mechanism wrote.", "quantifier": "all mechanisms, callbacks, sessions, inputs and outer writers", "why_tests_cant": "the tests write to vectors, which take everything at once; the encoder's held back bytes, its Ok(0) after a short write and its silent drop only show with other writers", "anchors": ["src/session.rs:228-245", "src/vectored_io.rs:18-70", "src/mechanisms/xoauth2/client.rs:46-96", "src/mechanisms/external/client.rs:11-24"]}
{"id": "C74", "title": "The interop server's line protocol", "statement": "Whatever lines a client sends, the interop server answers with the list of mechanisms, the base64 messages of one session, one per line and none left out, and at the end one line with the result: OK with what validation was shown of a proper PLAIN message, LOGIN name and password, or a SCRAM proof for the one account. The interop client completes such a dialogue.", "quantifier": "all client line sequences, configurations of the crate's mechanisms, environments and random draws", "why_tests_cant": "the interop programs have no tests beyond one of split_whitespace; a result with a line end in it, or the client's never sending its messages, only shows over a connection", "anchors": ["interop/src/bin/server.rs:17-96", "interop/src/bin/server.rs:104-129", "interop/src/bin/server.rs:131-247", "interop/src/bin/client.rs:193-238", "src/session.rs:228-245"]}
{"id": "C75", "title": "SaslName::unescape inverts escape", "statement": "Unescaping the escaped form of a name returns that name.", "quantifier": "all names and all byte strings", "why_tests_cant": "the function has no test and no caller; that its loop stays where it is shows as a hang", "anchors": ["src/mechanisms/scram/parser.rs:119-158", "src/mechanisms/scram/parser.rs:39-76"]}
{"id": "C76", "title": "SCRAM's answers to wrong messages", "statement": "For each wrong server-first, server-final and client-final message the step returns or sends the one error that the message calls for: wrong nonce, bad or zero iteration count, bad base64, wrong signature; unknown-user, channel-bindings-dont-match, invalid-proof. Nobody is asked and nothing is validated.", "quantifier": "all messages of the form that is parsed, all digests, kept data and callbacks", "why_tests_cant": "the tests have a few wrong messages and check that there is an error, not which one applies to which message", "anchors": ["src/mechanisms/scram/client.rs:265-300", "src/mechanisms/scram/client.rs:417-449", "src/mechanisms/scram/server.rs:280-378"]}
{"id": "C77", "title": "Every malformed SCRAM message gets the error of its first fault", "statement": "Each of the four SCRAM messages that is not of the accepted form (and does not panic) is refused with exactly one parse error, the one of the first field that is not as it should be; nothing is written and nobody is asked. A server error becomes the error the RFC has for its name, and other-error for every other name.", "quantifier": "all byte strings as messages, all digests, states and callbacks", "why_tests_cant": "the tests check a few malformed messages and only that there is some error", "anchors": ["src/mechanisms/scram/parser.rs:194-290", "src/mechanisms/scram/parser.rs:369-410", "src/mechanisms/scram/parser.rs:444-481", "src/mechanisms/scram/parser.rs:554-580"]}
{"id": "C78", "title": "A recorded SCRAM message is of no use in another exchange", "statement": "A client-final message is accepted by no session whose server has drawn another nonce, whoever its users are; a server-first message is refused, and no secret asked for, by every client that has drawn another nonce; two exchanges in which clients with the same server key finish on the same server-final message are the same exchange, or their auth messages are an HMAC collision.", "quantifier": "all digests, callbacks, sessions, random draws and recorded messages", "why_tests_cant": "replays need pairs of exchanges with related random draws; the tests run single exchanges with fixed nonces", "anchors": ["src/mechanisms/scram/server.rs:190-229", "src/mechanisms/scram/server.rs:317-330", "src/mechanisms/scram/client.rs:300-400", "src/mechanisms/scram/tools.rs:12-15"]}
{"id": "C79", "title": "Both sides of a SCRAM exchange agree about it, or a collision is at hand", "statement": "If a server accepts the proof a client with the same key has sent, then both take the exchange to be the same (user name, both nonces, salt, iteration count, gs2 header and channel binding data), whatever an attacker did to the messages; else the two auth messages collide under HMAC, or the client key and another input collide under the hash. The same holds for a client that finishes on what a server with the same key has sent, with HMAC alone.", "quantifier": "all digests, callbacks, sessions and messages, delivered or made up by anyone", "why_tests_cant": "tampering can change any part of any message; the tests only try honest exchanges", "anchors": ["src/mechanisms/scram/server.rs:280-378", "src/mechanisms/scram/client.rs:300-470", "src/mechanisms/scram/tools.rs:28-79"]}
{"id": "C80", "title": "A SCRAM server does not tell which users it knows", "statement": "An exchange with a user the server does not know can not be told from one with a user it knows: with the same random draws, the server could have given the same replies about a known user.", "quantifier": "all digests, callbacks, first and final messages, random draws", "why_tests_cant": "telling apart needs pairs of exchanges with two servers that share their random draws", "anchors": ["src/mechanisms/scram/server.rs:38-39", "src/mechanisms/scram/server.rs:190-229", "src/mechanisms/scram/server.rs:300-378"]}
{"id": "C81", "title": "A SCRAM server that is not convinced tells nothing about its keys", "statement": "Two servers with the same salt and iteration count for the user but different keys give the same replies to everything they are sent, unless one of them is convinced and validates.", "quantifier": "all digests, callbacks, keys, messages and random draws; writers that write", "why_tests_cant": "a leak is a difference between two runs; the tests look at single runs", "anchors": ["src/mechanisms/scram/server.rs:190-215", "src/mechanisms/scram/server.rs:300-378"]}
{"id": "C82", "title": "An ended session does nothing any more", "statement": "After a call of step has returned Finished or an error, or panicked, no later call of step returns Ok, writes anything, contacts the callback or changes the verdict.", "quantifier": "all mechanisms, callbacks, writers, random draws and sequences of calls", "why_tests_cant": "needs all ways a session can end and all calls after it", "anchors": ["src/session.rs:102-106", "src/mechanisms/login/server.rs:68-93", "src/mechanisms/plain/server.rs:30-80", "src/mechanisms/scram/server.rs:426-455", "src/mechanisms/gssapi/server.rs:66-103", "src/mechanisms/xoauth2/server.rs:64-120"]}
{"id": "C83", "title": "The kind of a mechanism error tells what was wrong", "statement": "When a step of a SCRAM client or server ends with a mechanism error that the callback did not come up with: of kind Parse, then the message is not one of RFC 5802's grammar; of kind Protocol, then it is; of kind Outcome, then the server sent an error.", "quantifier": "all digests, callbacks without mechanism errors of their own, states, messages", "why_tests_cant": "needs all messages, and all faults of each", "anchors": ["src/error.rs:10-24", "src/mechanisms/scram/client.rs:493-527", "src/mechanisms/scram/server.rs:48-60", "src/mechanisms/scram/parser.rs:23-27"]}
{"id": "C84", "title": "The features of a build decide which mechanisms there are", "statement": "In every build the default registry holds the mechanisms of the cargo features that are on and no others, each once; the registry for static credentials holds those of the documented four, LOGIN only without an authorization id. The builder keeps what it is given and never fails. To a client a feature that is off is the same as a server that does not offer its mechanisms; a server is started exactly for the mechanisms whose feature is on.", "quantifier": "all sets of features, all orders of the linker, offers, preferences", "why_tests_cant": "there are 512 builds, and tests are compiled with one of them", "anchors": ["src/registry.rs:137-281", "src/builder.rs:94-145", "src/config.rs:102-168", "src/mechanisms/mod.rs:9-25", "Cargo.toml:51-70"]}
{"id": "C85", "title": "A mechanism turns to the callback in a fixed order, about each thing once", "statement": "Up to the end of an exchange, each mechanism's requests for properties, the values it tells and its call of validate come in the order of a list that only depends on the mechanism and the side, some left out; nothing comes twice except a SCRAM client's request for channel bindings (two types). validate is the last contact of a server; clients never validate, servers never tell. Both sides of SCRAM and GSSAPI's client keep to this whatever calls follow. The lists are as short as possible.", "quantifier": "all callbacks, inputs, writers, random streams and sequences of calls", "why_tests_cant": "a callback may answer, decline, answer twice or fail, at each request; tests use one that answers", "anchors": ["src/session.rs:313-408", "src/mechanisms/plain/client.rs", "src/mechanisms/scram/client.rs:154-449", "src/mechanisms/scram/server.rs:121-378", "src/mechanisms/oauthbearer", "src/mechanisms/xoauth2", "src/mechanisms/gssapi"]}
{"id": "C86", "title": "The example clients do what they show", "statement": "examples/client_simple.rs prints the PLAIN message for the user name and the password that are typed, or ends with an error; examples/mechanism_selection.rs selects SCRAM-SHA-256.", "quantifier": "all inputs (any bytes), all builds (sets of features), all servers", "why_tests_cant": "an example is run by hand, and its output is not compared with what was typed", "anchors": ["examples/client_simple.rs:11-59", "examples/mechanism_selection.rs:3-18", "src/config.rs:130-168", "src/builder.rs:119-145"]}
{"id": "C87", "title": "The error of a server names what is wrong with the message", "statement": "A PLAIN, LOGIN, EXTERNAL, ANONYMOUS, XOAUTH2 or OAUTHBEARER server refuses a message before it shows it to the application exactly if the message has a fault, and its error is the one that names the first fault: wrong number of parts, a part that is no text, a string SASLprep refuses, an empty name or password, a wrong gs2 header, a malformed item, no token. Every message has one such error at most.", "quantifier": "all messages, callbacks, writers, preparations", "why_tests_cant": "the errors depend on the first of several faults in a message of any length; tests try some", "anchors": ["src/mechanisms/plain/server.rs:28-88", "src/mechanisms/xoauth2/server.rs:73-93", "src/mechanisms/oauthbearer/parser.rs:33-81", "src/mechanisms/login/server.rs:43-96", "src/mechanisms/external/server.rs:23-33", "src/mechanisms/anonymous/server.rs:22-34"]}
{"id": "C88", "title": "Text made without a check is text", "statement": "The bytes behind a parsed mechanism name, behind every name in the crate that is made without a check, and behind a channel binding name in a SCRAM message are UTF-8, so that using them as str is defined; they read as the text they were made from, and comparing names as bytes or as text is the same.", "quantifier": "all names and messages", "why_tests_cant": "undefined behaviour on a rare input shows in no test; the soundness of the unsafe blocks rests on all inputs", "anchors": ["src/mechname.rs:36-159", "src/mechanisms/scram/parser.rs:194-216"]}
{"id": "C89", "title": "The validate callback has the last word", "statement": "A step of a server either calls validate not at all and leaves the session's value alone, or calls it exactly once, does nothing observable after it, and returns exactly what the callback said: the callback's own error, or success. A callback that refuses everyone therefore never sees a server finish, and its refusal comes before anything was sent.", "quantifier": "all servers, states, callbacks, inputs and writers", "why_tests_cant": "tests use callbacks that accept; the claim is about every way the callback can answer in every state", "anchors": ["src/callback.rs:115-141", "src/session.rs:313-317", "src/mechanisms/plain/server.rs:28-88", "src/mechanisms/login/server.rs:43-96", "src/mechanisms/xoauth2/server.rs:63-119", "src/mechanisms/oauthbearer/server.rs:43-83", "src/mechanisms/scram/server.rs:280-378"]}
{"id": "C90", "title": "Random numbers are drawn once per session, for a nonce of its own", "statement": "All calls of a session together draw 24 random numbers for a SCRAM nonce, a SCRAM server 32 more for the salt of a user it has no password for, and no others; no other mechanism draws any. No result depends on numbers that were not drawn, and a SCRAM session that has drawn nothing has sent nothing. Sessions sharing one generator never use the same draw. Every character a nonce may have stands for the same share of draws, and nonces are equal only if their draws are.", "quantifier": "all built-in mechanisms, both sides, all sequences of step, step64, encode, decode and validation, all callbacks, writers and random streams", "why_tests_cant": "a test sees one stream of random numbers and one order of calls; how many numbers are used, and by whom, is not visible from outside", "anchors": ["src/mechanisms/scram/tools.rs:8-15", "src/mechanisms/scram/client.rs:154-236", "src/mechanisms/scram/client.rs:458-475", "src/mechanisms/scram/server.rs:121-229", "src/mechanisms/scram/server.rs:426-445"]}
{"id": "C91", "title": "The client loop of the documentation calls step correctly and ends", "statement": "The client of the crate's documentation, with any configuration of shipped mechanisms: its calls of step are one sequence, the first without input exactly if the client goes first, every other with what has been received; no call follows one that finished or failed. If the other side always sends something no call lacks its input. The crate panics only for SCRAM and only for the messages of C55. Without GSSAPI the loop ends after at most three calls. With PLAIN enabled it sends the one message of RFC 4616 and is done.", "quantifier": "all configurations of shipped mechanisms, offers, callbacks, writers, random streams and other sides", "why_tests_cant": "the example is compiled, not run: its helper functions are unimplemented!(), and the mechanism it runs with is known only when the server has made its offer", "anchors": ["src/lib.rs:36-80", "src/lib.rs:124-176", "src/session.rs:137-180", "src/config.rs:60-105"]}
{"id": "C92", "title": "What a failing writer has got is the beginning of the message", "statement": "Whatever the writer does and however the step ends, the bytes it has taken of a step are a prefix of the message a perfect writer would have got, and the callbacks contacted are the first of those that would have been contacted with it. So a broken connection never makes a mechanism send something else or skip a part of its message.", "quantifier": "all built-in mechanisms, states, inputs, callbacks, random streams and writer schedules", "why_tests_cant": "tests write to a Vec, which never fails", "anchors": ["src/vectored_io.rs:18-70", "src/mechanisms/xoauth2/client.rs:46-96", "src/mechanisms/oauthbearer/client.rs:29-87", "src/session.rs:121-144"]}
{"id": "C93", "title": "The last step of a GSSAPI exchange ends exactly as the messages say", "statement": "The server's last step finishes if the client's message unwraps to four bytes whose first is a set of known layers meeting the offered one; otherwise it fails, with a bad-token error, the library's error, or a request for input. The client's last step answers with the strongest layer that is both offered and allowed and finishes once that is written; it fails with a bad-token error for a malformed offer, a bad-context error if no layer is shared, or the error of the library or the writer. Neither asks the callback anything. The outcome is determined.", "quantifier": "all libraries, contexts, layer sets, messages, callbacks and writers", "why_tests_cant": "the code has no test of GSSAPI, which needs a Kerberos realm", "anchors": ["src/mechanisms/gssapi/client.rs:120-165", "src/mechanisms/gssapi/server.rs:119-147"]}
{"id": "C94", "title": "Every error in a mechanism's table occurs", "statement": "For each mechanism and side there is a table of errors. With a callback that has no errors of its own, an error is in the table exactly if some session of that mechanism, reached by some calls, ends a step with it. The same holds for encode and decode. So a SCRAM client can meet every error value of the RFC, every SCRAM server every byte that is no part of a binding name; and, for instance, no OAUTHBEARER server ever reports a missing part, no SCRAM client a bad nonce, and no client but those that write in pieces ever reports an interrupted write.", "quantifier": "all mechanisms and sides, all errors", "why_tests_cant": "the errors no session ends with cannot be observed, and the table is infinite", "anchors": ["src/error.rs:12-119", "src/mechanisms/*/client.rs", "src/mechanisms/*/server.rs"]}
{"id": "C95", "title": "A session depends on the callback only through the requests it makes", "statement": "Two callbacks that differ only in how they treat some contacts (requests for certain properties, values of certain properties they are told, calls of validate) give a session the same results, messages, states and contacts, as long as none of these contacts is made; and the first one that is made is the same with both. So what a session does depends on how the callback treats the contacts documented for its mechanism and on nothing else, and the first message of a SCRAM or LOGIN client does not depend on any secret.", "quantifier": "all built-in mechanisms and sides, all pairs of callbacks, all sets of contacts, all sequences of step, step64, encode, decode and validation, all writers and random streams", "why_tests_cant": "it compares the runs of all pairs of callbacks (a hyperproperty)", "anchors": ["src/session.rs:299-409", "src/callback.rs:304-504", "src/mechanisms/*/client.rs", "src/mechanisms/*/server.rs"]}
{"id": "C96", "title": "What errors say", "statement": "The Debug text of every error is one line without control characters, and so is its Display text unless it repeats the name of a channel binding that has one. A server of the library never shows such a name, whatever the client sent: of the client's bytes only a checked name and single bytes as numbers are repeated. A client shows one only if the user's callback chose it. The first word of the Debug text and the Display text tell the kinds of errors apart, and a SCRAM server's refusal is shown in the words it came in; the texts of a refused mechanism name tell exactly what was wrong. The interop server tells a client whose session failed why in exactly one line.", "quantifier": "all errors, all built-in mechanisms and sides, all callbacks, all inputs and sequences of calls, all clients of the interop server", "why_tests_cant": "the texts must be free of control characters for all client messages, not for the few that a test sends", "anchors": ["src/error.rs:36-103", "src/callback.rs:147-205", "src/validate.rs:166-173", "src/mechname.rs:162-179", "src/mechanisms/plain/mechinfo.rs:36-55", "src/mechanisms/scram/parser.rs:7-21,158-180,526-546", "src/mechanisms/scram/client.rs:493-517", "src/mechanisms/gssapi/properties.rs:6-19", "interop/src/bin/server.rs:205-215"]}
{"id": "C97", "title": "The interop tests and the interop server understand each other", "statement": "Whatever order the two programs run in, the test client of the interop crate and the interop server say the same lines to each other, each in answer only to what was said before; they come to an end exactly as their sessions do, and the test gets the line OK with what the server validated: for PLAIN and LOGIN the name and password, for SCRAM the one user if the password is the account's. A client whose only message is empty is the exception: the server asks for it, and the test takes the question for the result. The callback of the interop client offers exactly what the variables say, and its two unwraps never fail. A test that comes to any result was offered its mechanism and has run one whole session of it with the lines it got.", "quantifier": "all orders of the two programs, all mechanisms that complete, all names and passwords that fit on a line, all random values and hash functions", "why_tests_cant": "the tests need a running server and are not built by cargo; a run shows one order of the two programs and one password", "anchors": ["interop/src/tests/common/mod.rs:7-80", "interop/src/tests/plain.rs:7-13", "interop/src/tests/login.rs:7-13", "interop/src/tests/scram.rs:7-13", "interop/src/bin/server.rs:131-247", "interop/src/bin/client.rs:20-73"]}
{"id": "C98", "title": "The test utilities make the sessions applications get", "statement": "For every mechanism, client_session makes exactly the session a client without channel bindings selects, and server_session the session a server with the same configuration starts; a client with channel bindings differs exactly for a SCRAM mechanism whose -PLUS variant was not offered. They panic exactly for a mechanism that lacks the side or does not start, so never for one of the crate. The configuration for tests can always be made; its own mechanisms cannot be stepped.", "quantifier": "all mechanisms, configurations, offers and preferences", "why_tests_cant": "the crate's tests use these sessions to stand for real ones; that they are the same is assumed by each of them and shown by none", "anchors": ["src/test/mod.rs:18-42", "src/test/config.rs:34-48", "src/test/mechanism.rs:72-144", "src/registry.rs:97-111"]}
{"id": "C99", "title": "Selection with selectors of any kind", "statement": "For selectors of any kind, with any state of their own, and any preference: the mechanism that is used was picked by one of the selectors and is started as that one says, and nothing but what the selectors pick decides which it is. With the default preference it is the pick of the highest priority, the last registered of them; there is no shared mechanism exactly if nothing is picked. If every selector only picks what was offered, so does the selection; Matches is such a selector, that of SCRAM with channel bindings is not. On the selectors of the crate this is the selection of the other claims.", "quantifier": "all selectors, registries, offers and preferences", "why_tests_cant": "a selector is a trait object that custom mechanisms bring along; tests only use those of the crate", "anchors": ["src/registry.rs:64", "src/registry.rs:230-267", "src/registry.rs:295-360", "src/config.rs:211-220"]}
{"id": "C100", "title": "Debug of a configuration tells its mechanisms and no secrets", "statement": "The Debug texts of a configuration, and of the context and the session data made from it, tell which mechanisms there are, by name and sides, and nothing else: two configurations look the same exactly if these are the same, whatever their callbacks are. So the text of a configuration with credentials is the same for all credentials with or all without an authorization id. Each text is one line without control characters. What it says about channel bindings is always that there are none, also where a client uses them.", "quantifier": "all configurations with well-formed mechanism names, all callbacks and credentials, all builds", "why_tests_cant": "that a text holds no secret is about all secrets; logs are where they would show", "anchors": ["src/config.rs:43-47", "src/config.rs:171-199", "src/registry.rs:114-137", "src/sasl.rs:32-39", "src/session.rs:417-423", "src/mechname.rs:95-99"]}
{"id": "C101", "title": "Exactly how the steps of GSSAPI before the last one end", "statement": "For every GSS-API library, every callback and every writer, the steps of a GSSAPI client and server that establish the context and negotiate the layers end in exactly one way, told by the answers of the library, of the callback and of the writer: the reply with the bytes written, the state after the step and what the callback was asked. The first step of a client asks for the service and the host and makes a context for service@host; a step with a context hands over its token and, if the context is complete, asks for the acceptable layers (no answer means all), to which the client objects exactly if its context can do none of them; the server leaves out those its context cannot do and offers the rest, with the largest message size if any of them has a use for it. A server loses an incomplete context.", "quantifier": "all libraries, callbacks, inputs, writers and histories", "why_tests_cant": "all libraries and callbacks, including those that fail at any point", "anchors": ["src/mechanisms/gssapi/client.rs:46-128", "src/mechanisms/gssapi/server.rs:50-118", "src/session.rs:350-395"]}
{"id": "C102", "title": "What an OAUTHBEARER client reads of a server's error", "statement": "With `serde_json` written out: a response is read as an error exactly if it is a JSON text of it, an object with `status` and perhaps `scope` and `openid-configuration`, each at most once and without escape sequences, and any other members, or an array of these fields; no text stands for two errors. The client's callback is shown exactly that error, and for every other response that is not empty the step fails without a call. What is written is the text of RFC 7628 with the shortest escapes. Between a client and a server of this crate an error arrives exactly if none of its fields has a quote, a backslash or a control character; from other servers texts with any escape sequence in these fields, such as the escaped slashes some encoders write, are refused as well.", "quantifier": "all texts, errors, callbacks, writers and histories", "why_tests_cant": "texts of every form, by every encoder", "anchors": ["src/mechanisms/oauthbearer/properties.rs:30-72", "src/mechanisms/oauthbearer/client.rs:72-88", "src/mechanisms/oauthbearer/server.rs:58-72"]}
{"id": "C103", "title": "Exactly what the clients of the simple mechanisms send, for every callback", "statement": "The message of a PLAIN, LOGIN, EXTERNAL, ANONYMOUS, XOAUTH2 or OAUTHBEARER client is composed of fixed texts and of what the callback says, part by part up to the first failure. For every callback the reply, the bytes written, the state after the step and what the callback was asked are those of this composition: an answer that meets no objection is written at once and nothing the callback does afterwards takes it back; an optional request without answer writes nothing; a needed one ends the step with an error; an answer given twice is written, but a needed one then counts as missing.", "quantifier": "all callbacks, inputs and histories, all writers that take at least a byte per call", "why_tests_cant": "callbacks that do anything during a request", "anchors": ["src/mechanisms/plain/client.rs:14-61", "src/mechanisms/login/client.rs:26-51", "src/mechanisms/external/client.rs:12-24", "src/mechanisms/anonymous/client.rs:11-22", "src/mechanisms/xoauth2/client.rs:46-70", "src/mechanisms/oauthbearer/client.rs:29-66", "src/session.rs:350-395"]}
{"id": "C104", "title": "Exactly how the steps of SCRAM end, for every callback", "statement": "Given a message that can be read and a writer that takes at least a byte per call, the result of each step of SCRAM, the bytes it writes, the state it leaves, the random numbers it uses and what the callback was asked are a function of the callback's program: a client's first message is its channel binding in one of three modes, the name to act as and the user name, asked for in this order up to the first failure; its final message uses cached keys, else a salted password, else a password, and cached keys of the wrong length panic whatever follows; its last step ends well with the right signature whatever the callback does; a server's first message carries the callback's salt and iteration count, or 32 random bytes and 16384 if there is no password, and an error says which of channel binding and password was missing or unfit.", "quantifier": "all callbacks, histories, readable messages, random numbers, channel binding functions, and all writers that take at least a byte per call", "why_tests_cant": "callbacks that do anything during a request", "anchors": ["src/mechanisms/scram/client.rs:106-539", "src/mechanisms/scram/server.rs:122-303", "src/session.rs:264-395"]}
{"id": "C105", "title": "Exactly how the steps of servers end that come to a decision of the application", "statement": "For every callback, history and slot, a call of validate ends as the callback's program says: its result, the first value of the right type if the slot was free, one evaluation per closure run. A PLAIN, LOGIN, EXTERNAL or ANONYMOUS server given a message it can read, and a SCRAM server that accepts a proof, end with exactly this, writing nothing but SCRAM's signature. An XOAUTH2 or OAUTHBEARER server asks for the outcome of checking the token first; a refusal is sent as soon as it is given, and from then on the exchange counts as over even if the callback makes the step fail afterwards, so that the step after that finishes.", "quantifier": "all callbacks, histories, slots, readable messages, and all writers that take at least a byte per call", "why_tests_cant": "callbacks that do anything during a request or a validation", "anchors": ["src/session.rs:313-317", "src/validate.rs:100-164", "src/mechanisms/plain/server.rs:28-88", "src/mechanisms/login/server.rs:43-96", "src/mechanisms/external/server.rs:23-33", "src/mechanisms/anonymous/server.rs:22-34", "src/mechanisms/xoauth2/server.rs:63-119", "src/mechanisms/oauthbearer/server.rs:43-83", "src/mechanisms/scram/server.rs:305-398"]}
{"id": "C106", "title": "Exactly when a SCRAM exchange succeeds", "statement": "For all pairs of callbacks, a SCRAM client and a SCRAM server of this crate that talk to each other finish with success on both sides if and only if: the client's callback lets it make a first message; the server's callback settles on a stored password for the names in it, with a count of iterations that is not zero; the client's callback settles on keys for that salt and count; both have the same channel binding data; the hash of the client's proof combined with the server's signature is the stored key; both server keys sign the exchange the same way; and the validate callback accepts. The client's beginning can always be read by the server unless its callback names a type of channel binding that is not made of letters, digits, dots and dashes.", "quantifier": "all hashes, callbacks, histories, random numbers and writers that take all they are given", "why_tests_cant": "an equivalence over pairs of programs for callbacks", "anchors": ["src/mechanisms/scram/client.rs:94-560", "src/mechanisms/scram/server.rs:86-460"]}
{"id": "C107", "title": "Exactly when an exchange of PLAIN, LOGIN, EXTERNAL, ANONYMOUS, XOAUTH2 or OAUTHBEARER succeeds", "statement": "For all pairs of callbacks, the client's messages make the server of the crate finish if and only if: the client's callback lets it write its messages; the server can read them; with OAuth the server's callback says that the token is fine; and the validate callback accepts what was read. With PLAIN this is: a name and a password without NUL that can be prepared and are not empty then, the authorization name as it was first given. With LOGIN, EXTERNAL and ANONYMOUS nothing but the callbacks matters: every text is read.", "quantifier": "all callbacks, histories, preparations of names, JSON libraries and writers that take at least a byte per call", "why_tests_cant": "an equivalence over pairs of programs for callbacks", "anchors": ["src/mechanisms/plain/client.rs:14-62", "src/mechanisms/plain/server.rs:28-88", "src/mechanisms/login/client.rs:26-51", "src/mechanisms/login/server.rs:43-96", "src/mechanisms/external/client.rs:12-24", "src/mechanisms/external/server.rs:23-33", "src/mechanisms/anonymous/client.rs:11-22", "src/mechanisms/anonymous/server.rs:22-34", "src/mechanisms/xoauth2/client.rs:46-98", "src/mechanisms/xoauth2/server.rs:63-119", "src/mechanisms/oauthbearer/client.rs:29-88", "src/mechanisms/oauthbearer/server.rs:43-83"]}
{"id": "C108", "title": "Exactly how a refusal by an OAuth server reaches the client's application", "statement": "For all pairs of callbacks: the second step of an XOAUTH2 or OAUTHBEARER client ends in exactly one way. Nothing at all is success; everything else is handed to the callback if it can be read, the step fails with the callback's own error or if the value is not taken, and has an empty message to send otherwise. The exchange 'client starts, server refuses, client takes note, server finishes' takes place if and only if: the client can write its message and the server read it, the server's callback gives a reason that reads as a text that is not empty (with OAUTHBEARER: as JSON that the client can read back) and the validate callback has nothing against the rest, and the client's callback takes the reason. No token is both taken and refused.", "quantifier": "all callbacks, histories, JSON libraries and writers that take at least a byte per call", "why_tests_cant": "an equivalence over pairs of programs for callbacks", "anchors": ["src/mechanisms/xoauth2/client.rs:27-76", "src/mechanisms/xoauth2/server.rs:63-119", "src/mechanisms/oauthbearer/client.rs:29-100", "src/mechanisms/oauthbearer/server.rs:43-83"]}
{"id": "C109", "title": "Exactly when a GSSAPI exchange succeeds", "statement": "For all pairs of callbacks and every GSS-API library whose contexts get complete with a token each way, or with a single token, and are connected then: both sides finish if and only if the client's callback has a service and a host, for which the library has credentials; neither callback makes trouble when it is asked for the acceptable layers, nor does the client's context object to its set; the server's set, without what its context can't do, has only layers that exist; and some layer is in both sets.", "quantifier": "all callbacks, histories, libraries of the two kinds, flags of contexts, sets of layers and writers that take at least a byte per call", "why_tests_cant": "an equivalence over pairs of programs for callbacks and over libraries", "anchors": ["src/mechanisms/gssapi/client.rs:46-169", "src/mechanisms/gssapi/server.rs:50-147"]}
{"id": "C110", "title": "An error about the callback is about what it was last called for", "statement": "From any state of any mechanism: if a step fails because the callback did not answer a request or take what it was told (NoCallback), had no channel binding data, or did not validate, then the last time the callback was called in this very step was for just that: the request or notification of that property, a request for channel binding data, or the validation.", "quantifier": "all mechanisms and sides, all states, inputs, histories, writers and callbacks that do not themselves return such an error", "why_tests_cant": "an error that names the wrong property shows only for the callback, the state and the input that lead to it", "anchors": ["src/error.rs:111-119", "src/session.rs:331-408"]}
{"id": "C111", "title": "Exactly how a SCRAM exchange ends", "statement": "For all pairs of callbacks, once the server has answered the client's first message and the client has keys for that answer, the last steps of both sides are determined. For a user without stored password, for other channel binding data, or for a proof that does not fit the stored key (in that order) the server sends e=unknown-user, e=channel-bindings-dont-match or e=invalid-proof, is finished without asking validate, and the client's step fails with just that error. Otherwise the server sends its signature and its step ends as validate says; the client that is given the signature is finished, after offering its keys to the callback, if the signature is the one it expects, and otherwise fails with MutualAuthenticationFailed. So a client finishes exactly if the server knew the user, the channel binding data were equal, the proof fitted and the server's key signed the exchange as the client's did.", "quantifier": "all hashes, callbacks, histories, random numbers and writers that take all they are given", "why_tests_cant": "the ending depends on two callbacks, two histories and the hash; tests try a right and a wrong password", "anchors": ["src/mechanisms/scram/server.rs:280-456", "src/mechanisms/scram/client.rs:265-492", "src/mechanisms/scram/parser.rs:496-613"]}
{"id": "C112", "title": "What a report of an error tells", "statement": "The Display text of every error is the format given for its variant in the source, filled in, the texts of its sources are those of the errors it holds as source, and its Debug text is what derive makes of it. So two errors whose texts, together with those of their sources, read the same are the same error, apart from what other crates, GSS-API or the application say in words of their own.", "quantifier": "all errors, all details", "why_tests_cant": "texts are compared for a few errors only; that no two errors share a report takes all pairs", "anchors": ["src/error.rs:36-103", "src/callback.rs:196-205", "src/validate.rs:166-173", "src/mechanisms/oauthbearer/parser.rs:4-24", "src/mechanisms/oauthbearer/properties.rs:7-21", "src/mechanisms/scram/parser.rs:7-21", "src/mechanisms/scram/parser.rs:158-180", "src/mechanisms/scram/client.rs:493-517", "src/mechanisms/plain/mechinfo.rs:36-55"]}
{"id": "C113", "title": "A server sends no more than it was sent", "statement": "Whatever a client sends and in however many calls, all that a server writes in a session has at most as many bytes as it was sent, plus what its application told it to say (a salt and an iteration count beyond the made-up ones of SCRAM, the errors of XOAUTH2 and OAUTHBEARER), plus a number fixed for the mechanism: none for PLAIN, EXTERNAL, ANONYMOUS, XOAUTH2 and OAUTHBEARER, 19 for LOGIN, 73 and a last message for SCRAM, and one token and one wrapped message for GSSAPI. A LOGIN prompt whose writing fails is written again if the call is made again.", "quantifier": "all callers' inputs, numbers of calls, callbacks, random streams and writers", "why_tests_cant": "a session can have any number of calls, and which inputs make a server write most is not known beforehand", "anchors": ["src/mechanisms/scram/server.rs:121-229", "src/mechanisms/scram/server.rs:280-378", "src/mechanisms/scram/server.rs:426-455", "src/mechanisms/login/server.rs:43-96", "src/mechanisms/xoauth2/server.rs:63-119", "src/mechanisms/oauthbearer/server.rs:43-83", "src/mechanisms/gssapi/server.rs:50-147", "src/mechanisms/plain/server.rs:28-88"]}
{"id": "C114", "title": "The GNU SASL client of the interop tests reads lines and sends messages whole", "statement": "Whatever pieces the server's lines arrive in, the client of interop/gsasl-client gives the library exactly these lines without their ends, sends the library's texts as lines, takes the line after the last one for the outcome, and goes on only with a mechanism it was offered.", "quantifier": "all libraries, lines shorter than the buffer, ways of cutting them into pieces, buffer sizes and values of the variable that is not initialised", "why_tests_cant": "how the kernel cuts a stream into pieces is not under a test's control, and what a variable holds that was never written neither", "anchors": ["interop/gsasl-client/main.c:16-217", "interop/gsasl-client/main.c:219-331"]}
{"id": "C115", "title": "A client sends no more than its application supplies", "statement": "In any session with any server a client sends at most what its application supplies, with the labels the mechanism puts around it, and a fixed number of bytes; only a SCRAM client sends back part of what it was sent, never more than the length of that. A GSSAPI client sends at most one token of its library per call and one wrapped message.", "quantifier": "all mechanisms, servers, callbacks, writers and sequences of calls", "why_tests_cant": "sums over sessions of any length with a server that sends anything", "anchors": ["src/mechanisms/plain/client.rs:14-61", "src/mechanisms/scram/client.rs:154-236", "src/mechanisms/scram/client.rs:265-388", "src/mechanisms/oauthbearer/client.rs:29-87", "src/mechanisms/xoauth2/client.rs:46-96", "src/mechanisms/login/client.rs:26-51", "src/mechanisms/gssapi/client.rs:46-169"]}
{"id": "C116", "title": "What is sent is text", "statement": "Whatever peers send and callbacks supply, every message of a mechanism other than GSSAPI is well-formed UTF-8, as the RFCs demand of the messages of these mechanisms; through step64 that holds for GSSAPI, too.", "quantifier": "all mechanisms and sides, peers, callbacks, sequences of calls, writers that take what they are given", "why_tests_cant": "bytes of any kind, in any field, in sessions of any length", "anchors": ["src/mechanisms/plain/client.rs:14-61", "src/mechanisms/login/client.rs:26-51", "src/mechanisms/scram/client.rs:154-236", "src/mechanisms/scram/client.rs:265-388", "src/mechanisms/scram/server.rs:121-229", "src/mechanisms/scram/server.rs:280-378", "src/mechanisms/oauthbearer/server.rs:43-83", "src/mechanisms/xoauth2/server.rs:63-119", "src/session.rs:228-245"]}
{"id": "C117", "title": "Spellings that SASLprep makes equal count as the same", "statement": "A server that checks names and passwords (PLAIN, RFC 4616; SCRAM, RFC 5802) does the same for all spellings of a name and of a password that SASLprep maps to the same text; what it shows validate is the prepared text.", "quantifier": "all SASLprep functions, names, passwords, callbacks and sessions", "why_tests_cant": "spellings in any number, for any preparation function", "anchors": ["src/mechanisms/plain/server.rs:28-88", "src/mechanisms/mod.rs:95-104", "src/mechanisms/scram/client.rs:334-347", "src/mechanisms/scram/server.rs:121-229"]}
{"id": "C118", "title": "Cached SCRAM keys are as good as the password", "statement": "The keys a SCRAM client hands to its callback for caching can be given back: they are of the length SCRAM takes without a panic; a client that has nothing but these keys says word for word what the client with the password said; and with a server that stores what belongs to them, any later session succeeds, whatever the nonces, the channel binding and the name.", "quantifier": "all hash functions, callbacks, servers, histories, nonces, channel bindings, and writers that take at least a byte per call", "why_tests_cant": "two sessions with a callback that keeps something in between", "anchors": ["src/mechanisms/scram/client.rs:299-330", "src/mechanisms/scram/client.rs:429-442", "src/mechanisms/scram/properties.rs:55-82"]}
{"id": "C119", "title": "To the server's application a user is the same whatever the mechanism", "statement": "Credentials given to SASLConfig::with_credentials are shown to the server's validate callback as the same AuthId and the same AuthzId, whichever of the mechanisms for credentials (PLAIN, LOGIN, SCRAM with any hash) the two sides talk over.", "quantifier": "all credentials, mechanisms for credentials, callbacks of the server, hash functions, generators and cooperating writers", "why_tests_cant": "three mechanisms with three message formats, against every behaviour of the server's callback", "anchors": ["src/config.rs:130-168", "src/mechanisms/plain/server.rs:10-88", "src/mechanisms/login/server.rs:36-95", "src/mechanisms/scram/server.rs:93-105", "src/mechanisms/scram/server.rs:121-229"]}
{"id": "C120", "title": "The client's choice depends on the offer only through what it would have chosen", "statement": "Names taken out of the server's offer, other than that of the mechanism SASLClient::start_suggested chose, do not change which mechanism is chosen, and change how it is started exactly if the -PLUS variant of a chosen SCRAM mechanism is cut while channel binding is enabled; names added to the offer never make the chosen mechanism rank lower; names no registered mechanism looks at change nothing.", "quantifier": "all configurations, preferences, offers and parts of offers", "why_tests_cant": "two offers of any length are compared, over every set of registered mechanisms and every preference", "anchors": ["src/registry.rs:230-271", "src/registry.rs:302-357", "src/config.rs:211-224", "src/callback.rs:88-118", "src/mechanisms/scram/mechinfo.rs:52-86"]}
{"id": "C121", "title": "What the client picks from the server's list the server starts too", "statement": "Given the names a server lists with get_available, a client over the mechanisms of the crate picks a mechanism the server starts as well, the two sides are those of one mechanism and hash, and a SCRAM client that says the server does no channel binding says so to one that does not, so the alarm about a removed -PLUS offer is never false; with the default preference two sides that share a mechanism find one of at least its priority.", "quantifier": "all client and server configurations over the mechanisms of the crate, preferences, callbacks, generators and cooperating writers", "why_tests_cant": "pairs of configurations, and every callback of both sides", "anchors": ["src/sasl.rs:175-197", "src/registry.rs:230-271", "src/mechanisms/scram/mechinfo.rs:23-86", "src/mechanisms/scram/server.rs:147-161"]}
{"id": "C122", "title": "What is started depends on what else is registered only through ties", "statement": "With a preference that ranks mechanisms, as the default one does, a client with more mechanisms registered never starts one of lower rank, the order of registration and repetitions matter only between different mechanisms of the same rank, and taking away mechanisms that are not the one started changes nothing. What a server of the crate's mechanisms starts for a name depends only on whether it has that mechanism, and for SCRAM whether it has the -PLUS variant as well.", "quantifier": "all registries, offers, ranking preferences and names", "why_tests_cant": "registries of any size and order are compared with each other", "anchors": ["src/registry.rs:230-271", "src/sasl.rs:183-197", "src/mechanisms/scram/mechinfo.rs:23-42"]}
{"id": "C123", "title": "Channel binding can't be taken away from two sides that have it", "statement": "If client and server have the -PLUS variant of SCRAM on a hash, the client has channel binding enabled and the default preference, then whatever an attacker does to the list of mechanisms, to the name of the one the client picks and to the messages: when the server accepts the proof the client has sent, or the client finishes on what the server has sent, and both have the same key, the client runs the -PLUS mechanism and both have bound the exchange to the same data; else the auth messages collide under HMAC or the client key under the hash.", "quantifier": "all configurations with the -PLUS mechanism, offers, callbacks, digests, generators and messages made up by anyone", "why_tests_cant": "an attacker who changes list and messages at will, against every digest", "anchors": ["src/registry.rs:230-271", "src/mechanisms/scram/mechinfo.rs:23-86", "src/mechanisms/scram/client.rs:133-260", "src/mechanisms/scram/server.rs:121-229"]}
{"id": "C124", "title": "A mechanism the preference rejects might as well not be registered", "statement": "If a client's preference callback returns Greater for a mechanism whatever is held, then for every offered list the client starts, or fails, exactly as if that mechanism were not registered, whatever the preference says about the others (it need not be an order); such a mechanism is never started; and if a mechanism that is never rejected can be used, some mechanism is started.", "quantifier": "all registries, offered lists, preference functions and sets of rejected mechanisms", "why_tests_cant": "a preference is any function; rejecting one mechanism must not change the choice among the others in any order of registration", "anchors": ["src/callback.rs:94-113", "src/registry.rs:230-271"]}
