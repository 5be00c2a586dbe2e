# Formal model of rsasl: design

Subject: the `rsasl` crate in `/repo` (a SASL framework in Rust). The model is in
`lean/Verif`, written in Lean 4 and checked by Lean's kernel. The Rust code is not run;
the tie between model and code is the reading recorded in the comments, which cite
file and lines for every definition, and the checks in `Verif/Check` (see Trusted base).

## Shape of the model

* **Bytes and strings.** A byte string is `List UInt8`. A Rust `str` is a list of Unicode
  scalar values (`Str`), with a concrete UTF-8 encoder and a concrete decoder that follows
  the well-formedness table of `core::str::from_utf8`.
* **Outcomes.** Every call ends in `ok`, `err` (a `SessionError`) or `panic`. Rust slicing,
  `unwrap` and `clone_from_slice` that can fail produce `panic`, never a default value.
* **World.** A mechanism step is a function on its own state and a world holding: the bytes the
  output writer accepted, the writer's future behaviour, the random stream, the validation slot
  of the session and a log of observable events (callback requests, consumed answers,
  delivered actions, validate calls).
* **Writers.** The writer is an arbitrary finite schedule of responses (accept at most `n`
  bytes, `Interrupted`, other error), followed by accepting everything. This covers every
  terminating run of every well-behaved `Write` implementation.
* **User callbacks** are arbitrary interaction programs (inductive trees of `satisfy`,
  `satisfy_with`, `get_action`, `is` with continuations on the results), chosen afresh for
  every call from the history so far and the context. Theorems quantify over all of them.
  `validate` callbacks are arbitrary programs over `finalize` and `with` in the same way.
* **Mechanisms** are modelled function by function: PLAIN, LOGIN, EXTERNAL, ANONYMOUS, XOAUTH2,
  OAUTHBEARER, SCRAM (all hashes, with and without -PLUS), GSSAPI (with the security context
  abstract).
* **External code** is a parameter: hash, HMAC and PBKDF2 (only the output length is
  assumed), SASLprep, JSON parsing (written out for C102), the GSSAPI context, the random number generator.

Property theorems are in `Verif/Props/*.lean`, helper lemmas in `Verif/Proofs/*.lean`, model
definitions in `Verif/Model/*.lean`, independent specifications in `Verif/Spec/*.lean`.

## Plan per property

| id | modelled | how proved |
|----|----------|------------|
| C01 | `Mechname::parse` on byte lists | iff against an independent alphabet predicate; first-error characterisation by induction |
| C02 | registry, selectors, `Registry::select` | false for SCRAM when channel binding is on and only `-PLUS` is offered: counterexample plus partial theorem |
| C03 | same, default `prefer` | fold invariant: result is a last maximum; selectors only depend on membership in the offer |
| C04 | same, arbitrary `prefer` | induction on the fold |
| C05 | `server_start_suggested` | list search lemma |
| C06 | credential registries and callback | corollary of selection; callback program evaluated for all requests |
| C07 | PLAIN client and server | composition, split/join lemma |
| C08 | PLAIN client under arbitrary callbacks | request lemma (closure runs at most once), writer lemma |
| C09 | PLAIN server | iff against a spec over the three fields |
| C10 | LOGIN client and server | composition, state machine |
| C11 | EXTERNAL, ANONYMOUS | composition |
| C12 | XOAUTH2 client and server | false when AuthId holds 0x01: counterexample plus partial |
| C13 | XOAUTH2 error paths | case analysis over all callbacks |
| C14 | OAUTHBEARER client, parser, server | false (token is offered with `Bearer ` prefix; authzid with ','; values with '='): counterexamples plus partial theorem describing exactly what the server sees |
| C15 | all servers, step histories | induction over histories; false for SCRAM failures (no validate) and GSSAPI (never): counterexamples plus partials |
| C16 | `Validate`, `Session::validation` | induction over validate programs and steps |
| C17 | `Request`, `ClosureCR` | induction over callback programs against a specification that reads the program once (`Spec.beginning`, `Spec.sequel`); false for a second `satisfy` (answer is dropped): counterexample plus partial |
| C18 | `need_with`, `maybe_need_with` | induction over callback programs |
| C19 | `action` | induction over callback programs; exact outcome in `C19_exact` |
| C20 | providers, `Demand` | induction over provider trees |
| C21 | `VectoredWriter` | induction over the schedule |
| C22 | all mechanisms | per mechanism; false for vectored writers when the writer returns `Ok(0)`: counterexample plus partial |
| C23 | `step64` | unfolding plus C24 |
| C24 | base64 STANDARD engine | induction over groups |
| C25 | SCRAM client | invariant over histories |
| C26 | SCRAM server | invariant over histories |
| C27 | both SCRAM sides | composition |
| C28 | `handle_server_first` | log argument over arbitrary callbacks |
| C29 | selectors, CbSupport, server first step | composition of selection and first messages |
| C30 | -PLUS server | false (a `-PLUS` session accepts the `n` flag): counterexample plus partial |
| C31 | SCRAM server channel binding | corollary of C26 |
| C32 | `SaslName::escape` | induction over characters |
| C33 | client escape, server parse | false (no unescaping): counterexample plus partial (equal when no ',' or '=') |
| C34 | SCRAM parsers | round-trip lemmas on comma splitting |
| C35 | all mechanisms | false for SCRAM (short attributes): counterexamples plus partials |
| C36 | all mechanisms | false for SCRAM and GSSAPI (state is lost): counterexamples plus partials |
| C37 | all non-GSSAPI mechanisms | measure on states |
| C38 | encode/decode | invariant |
| C39 | GSSAPI client, abstract context | invariant |
| C40 | GSSAPI server | false for multi-bit choice: counterexample plus partial |
| C41 | GSSAPI server | false (state is dropped): counterexample |
| C42 | `generate_nonce` | list lemma, finite table |
| C43 | `need_cb_data` | case analysis |
| C44 | SCRAM client | two-run relation |
| C45 | SCRAM client | composition |
| C46 | SCRAM server | invariant over histories |
| C47 | session table | induction over schedules; callbacks without own mutable state |
| C48 | first steps | per mechanism |
| C49 | `ServerErrorValue` | round-trip lemma |
| C50 | `handle_client_first` | case analysis |
| C51 | `handle_server_final` | log argument |
| C52 | OAUTHBEARER parser | exact grammar, both directions |
| C53 | SCRAM parsers | exact grammars; RFC 5802 grammar refuted in places: counterexamples plus partials |
| C54 | SCRAM parsers | exact condition on the attribute lists |
| C55 | SCRAM parsers | exact condition for each panic |
| C56 | Gssapi encode/decode, Session | induction over a conversation through two connected contexts |
| C57 | Gssapi client + server | composition of both runs; layer = strongest shared one |
| C58 | Gssapi client | exact condition for going on when the context gets complete |
| C59 | Gssapi client | refuted; partial for a named layer |
| C60 | OAUTHBEARER client + server | refuted for errors that need escapes in JSON; partial for all others |
| C61 | SCRAM client, first step | refuted for a callback that answers one request twice; partial for callbacks that hand on errors (`Env.Upright`) |
| C62 | negotiation, start functions, sessions of SCRAM, PLAIN, LOGIN connected (`Spec.talk`) | proved |
| C63 | the callbacks of the two example servers with PLAIN and SCRAM servers | refuted for PLAIN without an authzid; partial with one; SCRAM proved |
| C64 | all servers, any sequence of calls | refuted for SCRAM and OAUTHBEARER; proved for the others |
| C65 | all mechanisms, both sides, any sequence of calls, against tables of contacts | proved |
| C66 | client start over the crate's mechanisms | proved |
| C67 | all mechanisms: errors of step, encode, decode | proved |
| C68 | all mechanisms: state against message written | proved |
| C69 | all mechanisms: step without input | refuted for LOGIN's client and both sides of GSSAPI; the part about errors also for EXTERNAL, ANONYMOUS and the OAuth mechanisms; partial for all others |
| C70 | `src/typed.rs` under requests, contexts, validations; equal to the untyped functions of the model | proved |
| C71 | `ThisCb` from `with_cb` to the end of a `-PLUS` exchange: equal data, different data, no data | proved |
| C72 | turn taking: the results allowed at each turn of each mechanism, and all endings of two such sequences | proved |
| C73 | step64 and the base64 encoder: an invariant of the encoder over any sequence of calls, the writing loops simulated, every step shown to come to an end in a way the relation allows, two counterexamples | partial |
| C74 | the interop programs: the loop related to a run of one session, the reason for each OK, complete runs of PLAIN and LOGIN, the client's output | partial |
| C75 | the loop of unescape: it stays at the first valid escape, by induction on the number of rounds; all other inputs by cases | partial |
| C76 | a table of faults independent of the code, shown complete and unambiguous, and the step for each entry | proved |
| C77 | a relation from lists of fields to faults, independent of the parser, shown equivalent to the parser's errors for every input | proved |
| C78 | the nonce of an accepted message is the one drawn; auth messages determine every field | proved |
| C79 | reduction: a disagreement yields two explicit colliding inputs | proved |
| C80 | simulation: the first message is that about a known user whose stored salt is the one drawn (`_partial`); false for the last message, which says unknown-user, and for repeated exchanges, in which the salt changes (`C80_false`, `C80_told`, `C80_repeat`) | partial |
| C81 | two runs in lockstep; the verdicts differ only where one accepts | proved |
| C82 | a set of dead states per mechanism, entered with every end and never left; SCRAM, GSSAPI (its server unless the writer failed), after `Finished` also LOGIN and the OAuth clients; false for the others: PLAIN and LOGIN servers look at a second password after refusing one (`C82_false_guess`) | partial |
| C83 | the exact set of mechanism errors of every state and message, from C76 and C77; the kinds follow, for the attributes rather than their values; false by the RFC's grammar (base64 is syntax; a server says `Parse` of a good message when its database is wrong) | partial |
| C84 | arrays with a feature at each element; the features of the documentation by name; selection with a feature off equals selection with the names not offered, so that C66 carries over; false for GSSAPI and the `-PLUS` mechanisms, which the default registry never holds | partial |
| C85 | a judgement on code: from a state with the contacts `l` left it makes a sublist of `l` and leaves the rest; composed over the steps while they return Running; after the end by C82 | proved |
| C86 | the programs as functions of their input and of the features; the exact result for every input from the lines read; `read_line` leaves the line feed in, so no message is the one typed, and a server with SASLprep refuses each | partial |
| C87 | for each mechanism a relation between messages and faults, by the parts of the message; the parsers give an error exactly for these, by cases and by induction over the items; a message that is taken changes the log | proved |
| C88 | undefined behaviour is a value of the model; ASCII bytes are the encoding of the characters with the same numbers, by induction; the alphabets over all 256 bytes | proved |
| C89 | a judgement on code: nothing validated, or validate once and then only stores; composed through every server; that no server finishes and that nothing was sent hold for PLAIN, LOGIN, EXTERNAL, ANONYMOUS (SCRAM finishes only after an error message), false for the OAuth servers and SCRAM (`C89_never_false`, `C89_silent_false`) | partial |
| C90 | a judgement for code that draws nothing, composed through every other mechanism; for SCRAM one for code that fails silently or draws a fixed number, with the states it can start from; then by induction over the calls; the split between two sessions from C47; every character (`C90_chars`) is false because the alphabet ends with `y` | partial |
| C91 | the loop as a function with fuel; that it is a run of the session by induction over the fuel; the end from the rank each mechanism has for C37, the panics from the exact statement for sessions (`C55_server_session`, `C55_client_session`), the input from C48 and C67 | proved |
| C92 | the comparison with a perfect writer of C22, with the failing run kept behind the other one (`Behind`, `Code.grows`); false for `Ok(0)` in the vectored writer and for callbacks that swallow the error: counterexamples plus partial | partial |
| C93 | case analysis against relations that list the ways to end (`Spec.ServerEnd`, `Spec.ClientEnd`), which are shown to be functions | proved |
| C94 | one direction is C67; the other gives a session for every entry, with the parameter of the error (an I/O error, a byte, a name, a number) left general | proved |
| C95 | callbacks are compared by what they do with one request, in whatever way they find out what is asked; a relation between two runs that is kept by every operation of mechanism code | proved |
| C96 | the texts as functions of the error and of what other crates write; C67 says which errors occur | proved |
| C97 | a dialogue of two programs as an order of lines, each justified by what was read; confluence; C62 carried over to lines | proved |
| C98 | selection (C02, C05) compared with the direct start | proved |
| C99 | selection rule over an inductive `SelPicks` of one selector; refinement to `Model/Registry` | proved |
| C100 | texts written out, prefix-free encoding; the callback is part of the configuration shown | proved |
| C101 | relations `ClientBegins`, `ClientGoesOn`, `ServerGoesOn`, `ServerOffers`, each with a proof that it leaves no choice; requests by `settled`, which tells what a request comes to from the callback's program alone | proved |
| C102 | a grammar of JSON texts (`Spec/JsonText`) and a reader (`Model/Json`) proved to read exactly it; discharges what C60 assumes of `serde_json` | proved |
| C103 | a list of phrases per message (`Spec/Phrases`) and its composition from the callback's program alone | proved |
| C104 | `opening`, `gathered`, `lookedUp`, each read off the callback's program alone (`Spec/ScramSteps`) | proved |
| C105 | `ruling` and `tokenChecked`, read off the callbacks' programs alone (`Spec/ServerSteps`) | proved |
| C106 | `Agree` (`Spec/ScramMeets`): a condition on the two callbacks' programs and the hash alone | proved |
| C107 | `PlainAgree`, `LoginAgree`, `TextAgree`, `XOAuth2Agree`, `BearerAgree` (`Spec/SimpleMeets`): conditions on the two callbacks' programs | proved |
| C108 | `clientTold`, `handedOver`, `Refused`, `XOAuth2Refused`, `BearerRefused` (`Spec/OAuthRefused`): conditions on the two callbacks' programs | proved |
| C109 | `GssAgree`, `TokenEachWay`, `TokenOneWay` (`Spec/GssMeets`): conditions on the callbacks' programs and the library | proved |
| C110 | `Blames` (`Spec/Blame`): which contact an error is about, by the kind of the error | proved |
| C111 | `scramEnding`, `convinced`, `lastSteps` (`Spec/ScramEnds`): both last steps, from what the callbacks settled on | proved |
| C112 | `sessionText`, `sourceTexts`, `sessionDebug`, `report`, `ReadsAs` (`Spec/Words`): formats as in the source, filled in; reports with their sources | partial: OAUTHBEARER's parse errors all read the same |
| C113 | `allowance`, `answersSize`, `inVain`, `totalIn`, `totalOut` (`Spec/Sizes`): sums of lengths over calls, replies and the log |
| C114 | `lineTalk`, `outcomeOf`, `OnWire`, `Arriving`, `Begun`, `Offered` (`Spec/GsaslClient`): a dialogue by lines, without a buffer |
| C115 | `clientAllowance`, `forCalls`, `clientAnswers` (`Spec/ClientSizes`): sums of lengths over calls and the log |
| C116 | `IsText` (`Spec/Letters`): the encoding of some characters |
| C117 | `SameSpelling` (`Spec/Spelling`): equal after the preparation |
| C118 | `HandedOut` (`Spec/Cached`): the two events of handing keys out; `scramExchange` |
| C119 | `ShownUser`, `ShownExactly` (`Spec/Identity`): what validate was shown, in the log of the server |
| C120 | `RankedBy`, `byPriority`, `FlagChanges`, `Concerns` (`Spec/Ranking`): preferences that go by a rank (the default one does, `C120_default`), when SCRAM sees a difference, and the names somebody looks at |
| C121 | `SidesFit` (`Spec/Pairs`): two implementations that are the sides of one mechanism |
| C122 | `RankedBy` (`Spec/Ranking`), `Usable` (`Spec/Selection`) |
| C123 | `ClientTook`, `ServerTook`, `Collision` (`Spec/ScramReplay`), as for C79; keys, stored values and channel binding data are those the session's own log and channel give |
| C124 | `Usable`, `authFor` (`Spec/Selection`); the other side of the equation is the same client without the mechanisms |

## Trusted base

* Lean's kernel (4.33.0). No axioms are added; there is no `sorry`, `admit`, `native_decide`,
  `bv_decide`, `implemented_by`, `extern` or `unsafe`. The property theorems depend on at most
  `propext`, `Classical.choice` and `Quot.sound`; `AXIOMS.md` lists the axioms of each theorem.
* The reading of the Rust source recorded in the comments of `Verif/Model`. Nothing checks that
  the Rust compiler agrees with it. As a check on the reading, `Verif/Check/UnitTests` has the crate's own
  unit tests as examples about the model, and `Verif/Check/Exchanges` the exchanges of RFC 5802, RFC 7677 and RFC 4616,
  with SHA-1, SHA-256 and PBKDF2 written out in `Verif/Check/Digests`. No claim rests on these files.
* The specifications in `Verif/Spec` and the statements in `Verif/Props`.
* What is said below about external code.

### What is modelled, file by file

| file | modelled in | left out |
|------|-------------|----------|
| `src/mechname.rs` | `Model/Mechname`, `Model/Text` (as text) | |
| `src/registry.rs`, `src/config.rs`, `src/builder.rs`, `src/sasl.rs` | `Model/Registry`, `Model/Selectors`, `Model/Builder`, `Model/Link`, `Model/Shown` (`Debug`) | the registry of `linkme` is any order of the registered mechanisms; elsewhere a registry is any list; a selector is one of the three kinds in the crate, or of any kind that does not panic in `Model/Selectors` (C99); what `client`/`server` start functions return is given by their results |
| `src/session.rs` | `Model/Session`, `Model/Callback`, `Model/Shown` (`Debug`); `step64` over an arbitrary outer writer in `Model/Encoder` | `Session.step64` has an outer writer that accepts everything it is given (C73 says when that is no loss) |
| `src/callback.rs`, `src/validate.rs` | `Model/Callback` | reading of `Request` through `Debug` |
| `src/context.rs`, `src/property.rs` | `Model/Property` | custom properties carry bytes |
| `src/typed.rs` | `Model/Typed`: casts with undefined behaviour as a value; the rest of the model compares tags as values of `Property`, C70 shows that this is the same | lifetimes |
| `src/vectored_io.rs` | `Model/Io` | |
| `src/error.rs` | `Model/Error`; the texts and sources in `Model/Display` | sources of errors of other crates |
| `src/channel_bindings.rs` | an arbitrary function in `Env`; the two callbacks of the crate in `Model/ChannelBindings` | |
| `src/mechanisms/plain`, `login`, `external`, `anonymous` | `Model/Mech/Plain`, `Model/Mech/Simple` | |
| `src/mechanisms/xoauth2`, `oauthbearer` | `Model/Mech/OAuth`, `Model/Json` | |
| `src/mechanisms/scram` | `Model/Mech/Scram*` | constant-time comparison (it is plain equality here) |
| `src/mechanisms/gssapi` | `Model/Mech/Gssapi` | `libgssapi` |
| `examples/server_plain.rs`, `examples/server_scram.rs` | `Model/ExampleServers`, the callbacks | printing |
| `interop/src/bin/server.rs`, `client.rs` | `Model/Interop` | sockets (lines that come and go), arguments, TLS |
| `examples/client_simple.rs`, `examples/mechanism_selection.rs` | `Model/ExampleClients` | errors of the terminal |
| `src/lib.rs` | `Model/Documented`, the client of the documentation | the protocol's functions are parameters |
| `src/test` | `Model/TestUtils` | `ClosureSessionCallback`, which nothing uses |
| `interop/src/tests` | `Model/InteropTests` | printing, the connection |
| `interop/gsasl-client/main.c` | `Model/GsaslClient` | libgsasl (a parameter), opening the connection, printing; undefined behaviour is one value, the variable that is not initialised a parameter |

Cargo features: all enabled, but for the registries (C84). Memory safety beyond the casts of `src/typed.rs` (lifetimes, the `repr(transparent)`
conversions), allocation failure, integer
overflow of lengths beyond `usize`, and timing are outside of the model.

### External code

* `core::any::TypeId`: different types have different ids (C70 only).
* `core`/`std`: `slice::split`, `splitn`, `str::from_utf8` (concrete, from the table in the
  documentation), `u32::from_str` (accepts a leading `+` and leading zeros, refuses overflow),
  `write_all` (retries on `Interrupted`, `WriteZero` on `Ok(0)`).
* `base64` 0.22, engine `STANDARD`: concrete. Decoding refuses wrong padding and non-zero trailing
  bits. This is from the documentation of the crate, its source is not in the sandbox.
* `base64::write::EncoderWriter` 0.22 (C73 only): concrete, in `Model/Encoder`. Keeps up to two input bytes,
  encodes at most 768 bytes per call, makes one call to the outer writer per call; when output
  of an earlier short write is pending it only passes that on and returns `Ok(0)`; no `write_vectored` of its own; dropping it
  writes the rest and ignores errors. The mechanisms' runs over it are not functions of the model: `Spec.Over64` asks for a list of
  buffers handed over that fits, `C73_write_all`, `C73_write_all_vectored` show that the loops make such calls, and
  `C73_calls`, `C73_total` that every step of a built-in mechanism over every outer writer has such a list.
* Hash, HMAC and PBKDF2: arbitrary functions; only the length of their output is assumed, and that a
  hash is not empty where that matters. No theorem assumes or proves a cryptographic property: what would
  follow from one is stated as "the peer presented a value with this hash".
* `stringprep::saslprep`: arbitrary partial function, except where a theorem names a law it needs
  (prepared strings stay prepared).
* `serde_json`: arbitrary functions, except in C60, which uses three laws (`Spec.Serde`): it writes the
  JSON text of an error with the shortest escapes, reads that text back, and refuses a string with an
  escape sequence for a borrowed field. C102 proves these of `Model/Json`, a model of the reader and writer of
  `serde_json` for this struct from knowledge of the crate (its source is not in the sandbox).
* `libgssapi`: arbitrary contexts and functions. Calls give back the context also when failing.
* `rand`: an arbitrary infinite sequence of draws.
* Writers: an arbitrary finite schedule of results and then accepting everything, which covers
  every writer in a run that ends.
* Texts of errors (C96 only): `Display` and `Debug` of `Utf8Error`, of numbers and of ASCII strings as in the standard
  library; what other crates write for their errors, `type_name` and the escapes of other characters are parameters.
* Connections (C97 only): bytes arrive as they were written; a program that waits for a line has written what it writes
  if the stream ends there (both programs write nothing more at the end of a stream, and the model shows that more
  lines only add to what they write).
* User callbacks: arbitrary deterministic programs over the public methods of `Request` and
  `Validate`, depending on the whole history of their session. What a callback does outside of its
  session (I/O, other sessions) is visible to the model only through its answers.

## Where the code departs from a stated property

Each has a theorem (with `false` in its name or cited in the manifest's note) giving a concrete run of
the model, and a `_partial` theorem for what does hold.

1. `Registry` selection with channel bindings on and only `SCRAM-X-PLUS` offered can start bare
   `SCRAM-X` (C02, C121).
2. XOAUTH2: a user name with byte 0x01 is sent on unchanged and read differently (C12). `C12_exact`: the
   server is shown the name and token given if and only if the name has no such byte. `C12_separator`
   says what happens otherwise: a name `x^Aauth=Bearer y` logs in as `x` with a token beginning with `y`.
3. OAUTHBEARER: the server's callback sees `Bearer <token>`, authzids are not escaped, values with
   `=` are refused, the last `auth` wins (C14, C52).
4. Finished without `validate`: SCRAM server after a wrong proof, GSSAPI server always. `validate` while
   returning Running: XOAUTH2 and OAUTHBEARER error paths (C15).
5. A second `satisfy` on an answered request drops the answer, and `satisfy_with` evaluates its
   closure although the request is answered (C17).
6. `VectoredWriter` takes `Ok(0)` from the writer for success and returns with bytes unwritten; a callback
   that hides the I/O error of `satisfy` makes a step return `Ok` with nothing written (C22),
   or makes it send a message with a hole, e.g. one without the authorization identity (C92).
7. SCRAM server: attributes a client adds to client-final are not covered by the signature; a short
   base64 proof is extended with zeros (C26).
8. SCRAM `-PLUS` server accepts the `n` flag, a bare server accepts `p=` (C30).
9. `SaslName::unescape` is never called, so servers report escaped names; if called it would not advance
   (C33).
10. SCRAM parsers panic on short or malformed attributes; wrong length of cached keys panics the client
    (C35, exact sets in C55).
11. SCRAM and GSSAPI lose their state on an error, also on `InputDataRequired`; SCRAM then panics on the
    next step (C36).
12. GSSAPI client: a callback that ignores the error of `satisfy` makes every layer acceptable (C39).
    An empty set of acceptable layers never works. With several acceptable layers it may take one its
    context does not support (C59).
13. GSSAPI server: only tests that the client's choice intersects its offer (C40); fails
    with contexts that need more than one token (C41); stepping a finished session drops its layer.
14. Malformed stored SCRAM keys with a callback that hides the error count as unknown user (C50).
15. SCRAM grammar: empty nonces and any two-byte authzid prefix accepted, optional extensions in
    server-first refused, in server-final taken as part of the verifier (C53).
16. OAUTHBEARER: an error whose fields hold `"`, `\` or a control character never reaches the client's
    callback, since the client's fields are borrowed from the JSON text (C60). Other servers' texts are refused for
    any escape sequence in these fields, also for the `\/` that some encoders write for every slash, as in the URL
    of `openid-configuration` (C102).
17. SCRAM client: a callback that answers `OverrideCBType` twice makes the client announce a channel
    binding type nobody gave, e.g. "xtls-exporter", with the data of another (C61). The type the callback
    gives is written without a check, so one with a comma breaks the message.
18. PLAIN and EXTERNAL servers show an empty `AuthzId` when the client sent none, as documented; the server of
    `examples/server_plain.rs` does not expect it and refuses the right password; what its first three exchanges assert fails (C63).
19. SCRAM and OAUTHBEARER servers show validate an `AuthzId` only if the client sent one, against the
    contract of `Authentication::step` that the set of properties is always the same (C64).
20. A call of `step` without input: LOGIN's client and GSSAPI's client go on and return Running; GSSAPI's server
    does if the library's last step left a token; EXTERNAL, ANONYMOUS and the OAuth mechanisms take it for an
    empty message (C69). The contract of `Authentication::step` asks for an error.
21. An XOAUTH2 server whose application refuses with the empty string is left waiting: the client takes the empty
    message for success (C72).
22. `step64` never calls `finish` on the base64 encoder: the last bytes are written when it is dropped, where errors are lost, so `Ok`
    does not mean that the message was written. After a short write of the outer writer the encoder answers `Ok(0)`:
    mechanisms that use `write_all` fail with `WriteZero`, the ones that use `VectoredWriter` leave out
    a part of the message and return `Ok` (C73).
23. The interop server writes names as they are into its result line: a LOGIN name with a line end makes a
    line of the client's choosing, and ` authzid=` in a name looks like an authorization id (C74). The interop client
    prints its messages instead of sending them, so it completes no dialogue. The keys of the server's
    SCRAM account have 32 bytes, so SCRAM-SHA-1 and SCRAM-SHA-512 cannot succeed.
24. `SaslName::unescape` does not return for any name with a comma or an equals sign, and panics at a cut off escape
    (C75). Nothing calls it, which is why C33 fails.
25. A SCRAM server tells which users it knows: the last message is `e=unknown-user` for the others, and their salt is
    drawn anew at every attempt (C80).
26. A session that has ended can be used again: PLAIN and LOGIN servers look at a second password after the application
    refused the first, the one-message mechanisms and the OAuth servers finish a second time with another name, the
    one-message clients send their message again, a GSSAPI server goes on after a write error (C82). The documentation
    says to make a new session.
27. The kinds of SCRAM's errors are not quite the documented ones: the server says `Parse` (syntactical error) of a
    good client-first message when it wants channel bindings or when its own stored key has the wrong length, and the
    client says `Protocol` (syntactically valid) of a signature or salt that is no base64 (C83).
28. `Registry::default` never holds GSSAPI (without `registry_static`) or a `-PLUS` mechanism, so a build with the
    feature `gssapi`, or a client that enables channel binding, does not have them without a registry of its own; the
    documentation says they are available (C84). Such a client then authenticates unbound without notice (`C123_plus_needed`).
29. `examples/client_simple.rs` leaves the line feeds in what it reads, so it never sends the user name that was
    typed, and a server that prepares it as RFC 4616 demands refuses every message (C86).
30. XOAUTH2 and OAUTHBEARER servers whose token and `validate` were both refused finish when they are stepped again, and a SCRAM
    server sends its signature, with which the client finishes, before it calls `validate` (C89).
31. The tests in `interop/src/tests` are not built: cargo looks for tests elsewhere and no target has the module. Their
    client could not test EXTERNAL or ANONYMOUS with an empty message: it sends the name alone, the server answers `-`,
    and the client takes that for the result (C97).
32. The mechanisms of `rsasl::test` are stubs: every call of `step` on X-RSASLTEST-CF or X-RSASLTEST-SF panics (`todo!()`), and
    the one that should be server-first is registered as client-first (C98).
33. `Debug` of a configuration always says `channel_binding: false` (src/config.rs:195, `FIXME`), also where the callback
    enables channel bindings and the client uses them (C100).
34. `SessionError::MechanismError` has no `source` (src/error.rs:66-67), and OAUTHBEARER's `Error::Parse` does not repeat its cause
    (src/mechanisms/oauthbearer/properties.rs:9-14): every error about an OAUTHBEARER message reads "internal mechanism error:
    failed to parse message", and nothing but `Debug` tells what was wrong (C112).
35. LOGIN's server writes its prompt before it changes its state, so after a failed write another call sends the prompt
    again without any input (`C113_login_again`).
36. The GNU SASL client of the interop tests (`interop/gsasl-client/main.c`, C114) reads its variable `fresh` before it is written, and
    if it does not happen to hold 0 moves nearly 2^64 bytes; it sends a message that takes three calls of `send` from the
    wrong place; it takes an error of `recv` for 2^64 - 1 bytes, so that it leaves the buffer or believes an outcome
    of which only `OK` and a byte have arrived; `SCRAM-SHA-256-PLUS` in the list is enough for `SCRAM-SHA-256`.
37. A SCRAM client checks no byte of the server's part of the nonce and sends it back, so a server can have it send
    bytes that are no text (C116). Servers do check the client's nonce.
38. SCRAM does not prepare names and passwords with SASLprep on either side, as RFC 5802 has it, though its features
    depend on `stringprep`: another spelling of the right password is refused (C117).
39. One user has several names: over PLAIN the server's application is shown the prepared name, over SCRAM the escaped one, over
    LOGIN the one that was given; without a name to act as, PLAIN shows an empty `AuthzId`, SCRAM and LOGIN show none (C119).
40. Minor: no lower bound on SCRAM iteration counts, and no upper bound below 2^32, so a server can keep a client busy; `SHA-512` and `SHA-256` have the same
    priority (the later registered wins); nonce alphabet stops at `y` (C90); LOGIN client answers `Running` to a missing first message; an empty salted password counts as no answer;
    the PLAIN message shown in the introduction of `src/lib.rs` is that of the password `secret` with a line feed (C91);
    the error of the ANONYMOUS server speaks of tokens longer than 255 characters, but it refuses none for its length (C11);
    `prefer` is used as a fold, so with a preference that is not transitive the choice depends on names that lose (C120).

## Tests against wrong programs

`seeded/LOG.jsonl` has one line per edit of the model: definition, edit, claim broken, theorems that failed,
theorems tightened because they did not fail. The edits are made in a copy outside of this
directory.

An edit also breaks proofs about helpers, which does not yet show that a claim is strong enough. So for the properties a second
kind of test takes the statement of a theorem, as it is written, over to the wrong program, and proves its negation by a
concrete run there; the log says "its statement is refuted". All properties but C56 have a theorem that was seen to fail itself
in one of the two ways. C56 has its layer as a hypothesis about what the session does, which a wrong program does not meet;
what gives the hypothesis is C57, which is refuted.
