# Formal model of python-openid in Lean 4

This file says what is modelled, how each property is proved, what is trusted, and what was found to be false of the code.

## Approach

* `lean/Verif/Base/*`: what the code takes from Python (text, `int()`, UTF-8, base64, percent encoding, `urllib.parse`, a file
  system, an XML tree).
* `lean/Verif/Model/*`: the code, function by function.  Every definition cites the file and lines in /repo it models and says
  what was simplified.  `tools/cite.py` checks that every cited range is where the named function is.
* `lean/Verif/Spec/*`: small specifications, independent of how the code works, that the property statements use.
* `lean/Verif/Props/*`: the properties as theorems (`Props.cNN_...`), each with an example showing that a concrete case meets
  the hypotheses.
* `lean/Verif/Lemmas/*`: everything else that the proofs need.
* `seeded/LOG.jsonl`: wrong programs the theorems were tested against (`tools/seed.py` makes and builds them).
  `failed` lists the theorems whose proofs no longer check after the edit, directly or through a lemma.  That is weaker than the statement
  being false: a proof may fail on an edit that leaves its theorem true (one such case, for C92, was looked into and has a note).
  Where an example fails too, a concrete run differs; in nearly half of the attempts (394 of 822 with a failure, when this was
  written) no example fails, and that the theorem is false there was not established by itself.

Conventions:

* Text is `Str = List Char`: Unicode scalar values, so lone surrogates of Python strings are excluded.  Bytes are `List UInt8`.
* Dictionaries are insertion-ordered association lists with unique keys, as in Python 3.7+.
* Exceptions are values (`Except`).  Classes with state become a state type and functions returning the new state.
* Programs that talk to a store, the network or discovery are trees of calls (`Prog`).  A theorem about them ranges over every
  list of answers the outside can give (`Runs p events result`) or over every store with a stated behaviour (`Faithful`).
* HMAC, the hash functions, modular exponentiation as done by `cryptography`, IDNA and Unicode tables, the clock, random bytes,
  the shuffle, the HTTP libraries and the XML/HTML parser are parameters.  The theorems quantify over them.  Where something is
  assumed about one (for instance that two given texts do not collide under SHA-1), it is a hypothesis of the theorem and the
  example beside it shows that it can be met.

## Plan per property

* **C01** KV form is unambiguous and parses back — `Model/KVForm`: `seqToKV`/`kvToSeq` on lists of characters, with Python's `str.strip`/`split`.  Round trip by induction on the pair list.
* **C02** KV form accepts exactly the unambiguous pairs, and distinct pairs have distinct encodings — Same model.  Acceptance is an iff; injectivity through the line structure.
* **C03** Binary integer encoding round-trips and is canonical — `Model/Cryptutil` over `Nat` and `List UInt8`; base-256 digits by strong induction; the encoding is the shortest two's complement.
* **C04** Base64 and numeric base64 round-trip — `Base/Base64` (`b2a`/`a2b` as in binascii, the lenient decoder included); round trip by induction over groups of three bytes.
* **C05** Diffie-Hellman secret transport is exact — `Model/DH`: the `cryptography` package is the parameter `Lib`.  Secret transport is proved for every library whose exchange is symmetric.  That the hashed value is the btwoc form of the shared secret is proved to hold exactly when the library did not pad (`c05_hashes_btwoc`; `c05_padding_not_btwoc` is a library that does).
* **C06** URL query encoding round-trips and appendArgs keeps every argument — `Base/Percent`, `Model/Oidutil`: UTF-8, `quote_plus`, `urlencode`, `parse_qsl`, `appendArgs`; round trip by induction.  Where the arguments of a URL with a fragment go is `c06_fragment`.
* **C07** A protocol message survives parse and re-serialisation — `Model/Message`: the whole of `Message`/`NamespaceMap`; dictionaries compared as finite maps.
* **C08** Namespace aliases stay a one-to-one map — `NamespaceMap` as a state machine; invariant by induction over histories of calls.
* **C09** Message arguments behave like a map keyed by namespace and key — `Message` as a state machine; refinement to a function (namespace, key) → optional text, over histories.
* **C10** Association serialisation round-trips and rejects everything else — `Model/Association`: `serialize`/`deserialize` over the KV model, with decimal `int()`.
* **C11** Association expiry is exact and monotone — `getExpiresIn` over `Int`.
* **C12** A message signed with an association verifies, and signing covers every protocol field — `signMessage`/`checkMessageSignature`, the MAC a parameter.
* **C13** Tampering with a signed field is detected unless the MAC collides — Injectivity of KV form lifted to messages; the conclusion is a disjunction with an explicit MAC collision.
* **C14** Session negotiation never allows an invalid or unlisted pair — `SessionNegotiator` as a state machine; invariant over histories.
* **C15** Nonce strings round-trip through their timestamp — `Model/Nonce`: civil calendar (`Spec/Calendar`), `strftime`/`strptime` with the fixed format; round trip over all days up to year 9999. `Props/NonceRead`: which texts `split` accepts and what time they stand for, field by field.
* **C16** Nonce timestamp check is exactly the skew window — `checkTimestamp` as an iff.
* **C17** A nonce is accepted at most once by the memory store — `Model/MemStore` with a clock reading per call; history invariant.
* **C18** A nonce is accepted at most once by the file store under concurrency — `Model/FileStore` over `Base/FileSystem`: a call is a tree of system calls, and any number of calls are interleaved.  SHA-1 is a parameter, and that the texts used do not collide is a hypothesis.  The assumption on the schedule (`Prompt`) is about the clock only; that a process gets to create its file only within the window is proved from its program (`Lemmas/FilePrompt`).
* **C19** A nonce is accepted at most once by the SQL store — `Model/SqlStore`: tables as lists with the uniqueness constraint; transactions atomic.
* **C20** The memory store behaves like a map from (server, handle) to association — `MemoryStore` refined to a pure map over histories.
* **C21** Association files are replaced atomically — `FileStore`: system calls atomic, interleaved with any other process, each may fail or be the last before a crash.  A program logic with ghost state (`Lemmas/FileLogic`) gives one invariant for all interleavings and one for a call stopped anywhere.  Loss of power: every file cut to any length not below what was synced.
* **C22** Association and nonce file names never confuse two keys — `getAssociationFilename`/`_filenameEscape`/`_safe64` with SHA-1 a parameter.
* **C23** File and SQL stores never return an expired association — `SqlStore` and `FileStore` lookups refined to "last stored, not removed, alive now" over histories (`Spec/Store`).
* **C24** SQL store operations are all-or-nothing — `_callInTransaction` over a list of statements that may fail anywhere.
* **C25** Dot segments are removed from paths — The loop of `remove_dot_segments` by well-founded recursion, against a walk over the segments (`Spec/Path`).
* **C26** urinorm produces a normalised http(s) URL or raises ValueError — `Model/Urinorm` over the URL model (`urlsplit`, `quote`, `unquote`, `parse_qsl`, `urlunsplit`); IDNA a parameter.  Reading back (`c26_authority`) and idempotence have conditions, each shown necessary by a witness.
* **C27** Realm matching is sound and exact — `Model/TrustRoot` over the URL model; separate specification of realm matching (`Spec/TrustRoot`).
* **C28** Over-broad wildcard realms are not sane — `TrustRoot.isSane` with the real list of top-level domains.
* **C29** Return-URL verification only accepts matching non-wildcard return URLs — `returnToMatches`/`verifyReturnTo`; the result of discovery a parameter.
* **C30** The server never lets check_authentication validate a shared association — `Model/Server`: Signatory and store as a state machine, for every faithful store; instances for the three stores.  `c30_any_schedule` interleaves any number of server calls.
* **C31** A stateless signature can be verified at most once — Same state machine.  Proved for calls one after another; false for concurrent ones (`c31_race`).
* **C32** Signing with an unknown or expired handle falls back to a fresh private association — `Signatory.sign` over any faithful store.
* **C33** Every positive assertion leaves the server signed, exactly once — `Encoder`/`SigningEncoder` over any store behaviour.
* **C34** Request decoding yields a request of the right kind or a protocol error — `Decoder.decode` branch by branch; exceptions as values; what the query must hold is `Spec/ServerCodec`.
* **C35** A positive answer never asserts an identity other than the one requested — `CheckIDRequest.answer` branch by branch; what a response says is `Spec/ServerAnswer`.
* **C36** Association requests honour the server's negotiator and establish a common secret — `Server.openid_associate` composed with the consumer's extraction of the secret.
* **C37** A successful completion implies every verification step passed — `Model/Consumer`: `complete` with store, discovery and provider arbitrary.  A success implies every check (`Spec/Consumer`), and conversely an assertion that passes every check is accepted (`c37_accepts_*`).
* **C38** No response is accepted twice — `complete` over histories of calls with each store.  `Props/ReplayConc`: the same with the systems of C81 and C83.
* **C39** Only signed values are handed to the application when signed values are asked for — The accessors of `SuccessResponse`.
* **C40** The consumer negotiates only allowed associations and stops — `_negotiateAssociation`; the provider is an arbitrary sequence of answers.
* **C41** An honest run succeeds — Composition: request, URL, decoding, answer, signature, encoding, parsing, completion; four theorems: a user's endpoint or a provider that chooses, a shared association or a check with the provider (`Spec/Honest`, `Props/Honest`).
* **C42** Discovered services are tried in order, each at most once — `Model/Manager`: the discovery manager over a history of visits.
* **C43** Service ordering is a stable rearrangement by type preference — `arrangeByType`: permutation, sortedness, stability.
* **C44** Priority ordering of XRDS elements is correct for every shuffle — `Model/Etxrd`: `prioSort` with the shuffle an arbitrary permutation.
* **C45** Attribute exchange messages say what was put in them, and arrive — `Model/Ax`: each message as a history of calls; exact arguments, exact parsing, errors, round trips, arrival through messages (using C62).
* **C46** Simple registration requests stay well-formed and arrive; responses leak nothing — `Model/Sreg`: the request as a history of calls, lenient and strict parsing, round trips, arrival (using C62), what a response extracts.
* **C47** Authentication policy messages say the same to both sides — `Model/Pape`, both drafts: invariants over histories of calls, exact arguments, exact parsing, round trips, arrival (using C62), signed responses (using C39).
* **C48** Content negotiation — `Model/Accept` over any ordered numbers (`float`, `%0.1f` and `1 - q` are parameters; `nan` is not modelled).  Entries of a header and qualities are specified separately (`Spec/Accept`); matching is proved equal to the specification in both directions.
* **C49** A CanonicalID is returned only if every authority in the chain delegates to the next — `getCanonicalID` over a list of XRDs.
* **C50** Fetching over redirects — `Model/Fetchers`: the loop of the curl fetcher over an arbitrary environment and any number of rounds; header parsing on bytes; the other fetchers as far as they check URLs; the default fetcher as a state machine.
* **C51** Errors are reported through the channel the request allows — `ProtocolError.toMessage`/`whichEncoding`/`encodeToURL` and so on, as an iff on what is sent.
* **C52** Response encoding is determined by the request — `OpenIDResponse.whichEncoding`/`encodeToURL`, `Encoder.encode`, as an iff on what is sent.
* **C53** KV parsing reads exactly the well-formed lines — `kvToSeq` against a line-wise specification, strict and lenient, with the errors.
* **C54** The SQL store's table is an exact map of what was stored — `removeAssociation`/`cleanupAssociations` of the SQL store on the table.
* **C55** Discovery makes no endpoint for another user — `Model/Discover`, `Model/Endpoint`: `discover` over an arbitrary network; who an endpoint speaks for.
* **C56** What discovery on a URL asks for — The requests `discover` makes, in order, against a specification of Yadis location (`Spec/Yadis`).
* **C57** The endpoints of an XRDS document — `fromXRDS` on an XML tree: the endpoints, and what makes it raise.
* **C58** The endpoints of an HTML page — `fromHTML` on the links of a page.
* **C59** A service has one local identifier — `findOPLocalIdentifier`.
* **C60** What discovery raises — The exceptions of discovery, all of them, with a witness for each unexpected one.
* **C61** Endpoints found for an XRI are for its verified CanonicalID — `Model/Xri`: `discoverXRI` over an arbitrary resolver.
* **C62** A message arrives as it was sent — Messages through query strings, forms and URLs, for messages made by any history of calls.
* **C63** An authentication request says exactly what was asked — `beginWithoutDiscovery`/`getMessage`/`redirectURL`: the message carries exactly the fields of `Spec/AuthRequest`, no others.
* **C64** A message sent as a form arrives as it is, and nothing else does — `Model/Form` writes the markup as lxml does; `Spec/Form` is an independent reader of tags, attributes and forms.  What is read back from what was written is computed by induction over the text, character by character.
* **C65** What a consumer accepts, the provider said — The consumer's `complete` and the server's history of calls in one statement (`Spec/Authentic`).  The text a consumer checks is split into lines again, which gives back the fields; a text the provider signed has the same lines.  That an attacker cannot make a MAC is not assumed: a forgery is the other alternative of the conclusion, spelled out.  The data of extensions: what the provider declares and puts in is listed and so arrives, and what is read under a declared alias is what was sent under it; `c65_openid1_relabelled` shows that this needs OpenID 2.
* **C66** A provider's endpoint replies to every request — `Model/Serve` puts decoding, handling and encoding together as examples/server.py does.  One theorem for each kind of request gives the reply, read back from key-value form (`Spec/Serve`); `c66_unanswered` lists what makes an exception leave, and a witness shows each case that a relying party would not expect.
* **C67** A consumer completes with a response; the exceptions that leave it — every step of `complete` and `begin` is followed for every reply from outside (`Runs`); `Spec/Unfinished` lists the conditions, one constructor each; `c67_responds` is the unconditional part for answers other than positive assertions.
* **C68** A message can be read exactly when its extensions can go together — `Spec/Clash` says when extensions cannot, on the arguments alone; the parser is shown to fail with that exception only then (invariant over the fold that places arguments: where every alias came from), and not to succeed otherwise.
* **C69** An honest run carries the data of extensions both ways — C41 with arbitrary extensions attached on both sides (`Model/Extend`, `Spec/HonestExt`).  All of C41's lemmas are about messages with given OpenID fields besides the extensions of some message (`Lemmas/Holds`); attaching is an invariant over the list of extensions (`Lemmas/Attach`); C41 is the case of no extensions.
* **C70** What service filters give — `Model/Filters` (filters of any nesting as trees), `Spec/Filters` (stages of a tree); nested inductive types, structural recursion; the consumer's filter is an instance (`c70_consumer`).
* **C71** A provider verifies a return URL over the web — the composition of C28/C29 (`Model/TrustRoot`) with the discovery program of `Model/Discover` and the filter of C70; decided outright for every list of requests and replies.
* **C72** Each XRI is looked up at an address of its own — `Model/Xri`; a relation `Escaped` between a text and its escaped forms is kept by each step of the escaping and undone by unquoting (`Lemmas/Xri`).  `Props/XriEscape`: which characters are escaped.
* **C73** Who logs in is vouched for by their own page — composition of C37 (`Model/Consumer`), the service manager (`Model/Manager`) and C55–C61 (`Model/Discover`); an invariant over all call histories of a session says that every endpoint kept in it came out of a discovery, and every discovery is explained by the pages it fetched (`Spec/Vouched`, which mentions only pages).
* **C74** A login works from what the user types to the end, whatever associations each side holds — composition of C36, C41 and C66: the relying party's calls (`Model/Consumer`) run against its store and a web (`Spec/Login`: `live`, `webOf`) at one address of which is the provider's endpoint (`Model/Serve`); proved by running `begin`, then splitting on whether the provider still has the association chosen. `InStep`, the invariant between the two stores, is kept by every step. `c74_memory_store` shows that the memory store is what the theorem asks for. `Keeps` (`Spec/Login`) is what the relying party's store has to do; its `ranked` is when the store can say which association is the latest. `c74_memory_store` and `c74_sql_store` (`Props/LoginSql`; SQLite and PostgreSQL without faults) are the stores that do it. `c74_session` says what `complete` leaves in the session. `Changes` (`Spec/Login`) says what each step leaves alone in the two stores.
* **C75** A refusal arrives as what it is — composition of C34, C35, C51, C52 and C37, on the requests of C63/C69: `CheckIDRequest.answer` with no, `getCancelURL`, `ProtocolError`, and `complete`, over what the browser brings (`Spec/Honest`: `Brings`). The messages are given exactly, so both the parse and the effect at the consumer follow. The URL for asking the user is decoded again with the lemma that decodes any request.
* **C76** A login carries what the relying party asks for and what the provider answers — `c76_login` (`Props/Login`) is C74 with `∀ X` attached to the request and `∀ Y` to the answer, and `c74_login` is its case of nothing attached. Both sides' readings are stated with `Gives` (`Spec/HonestExt`): each extension's arguments arrive exactly, and no other namespace. `Props/LoginExt` composes that with C45, C46 and C47 for simple registration, attribute exchange and PAPE, and shows one login with all three.
* **C77** A login works when the provider chooses the user — `c77_login` (`Props/LoginSelect`), from C69's runs with a provider that chooses, in the setting of C74; the endpoint discovery must find for the answer is `Agrees`.
* **C78** Any number of logins at once — `Spec/Logins` says what a scene is (two stores, and how far each of the logins `ι` is), what the user of each says (`Verdict`), how a login should end (`EndsWell`), what the moves are and when a scene is `Ready`; moves run the modelled functions themselves, and an `other` move replaces both stores by any that `Harmless` allows. `c78_logins` and `c78_finishes` (`Props/Logins`) are an invariant over all runs (`Standing`, `Lemmas/Logins`), which rests on C76's frame conclusions: what each step of one login leaves alone in the two stores (`Lemmas/Frame`). `Harmless` is needed: if the provider loses the shared association and another login's completion then makes the relying party drop it, a login that is under way fails.
* **C79** What to show of an identifier, and what an endpoint supports — `Props/Shown`: `urldefrag` of `u ++ '#' :: f` gives back exactly `u` for every `Showable` `u` (`Spec/Shown`), from the splitting lemmas of C26; with C61 for i-names.
* **C80** The SQL statements do what the stores need — `Model/SqlText` has the texts of the statements of the three classes and the code that puts table names in, encodes arguments and reads rows; `Base/Sql` is a lexer, parser and evaluator for statements of the kinds used, parametrised by a database (`Engine`). `Lemmas/SqlParse` computes what each text parses to for any table names, and `Lemmas/SqlTextOps` relates each operation to the one of `Model/SqlStore`, so that C19, C23, C30, C38 and C74 hold for the texts. `Spec/SqlText` says what is asked of the surroundings.
* **C81** SQL stores with several connections at once — `Base/SqlRows`: what a database does with rows while several transactions are open (each statement at one moment; `READ COMMITTED` with locks on rows); `Model/SqlConc`: the operations as programs that send statements one by one, and the system of any number of clients, with failing statements and commits, commits whose success is not heard of, and clients dying. Claims: at most once for nonces (given that the clock does not leave the window while a call with that time is going on; the assumption is on the clock only, that the programs check the window themselves is proved, `Lemmas/SqlConcPrompt`), keys stay unique, what a lookup returns was stored and had not expired, what was stored stays, and a call alone does what `Model/SqlStore` says. Trusted: `Base/SqlRows` is how the database isolates transactions.
* **C82** Registered names of extensions — `registerNamespaceAlias` of `Model/Message` over histories (`Spec/Registry`: a call takes effect unless an earlier one that did has its alias or URI); what is read with the registry by induction over the arguments of a message (`Lemmas/MessageImplied`), beside C07, C09 and C68.
* **C83** The memory store with several threads — `Model/MemConc`: the operations as programs that access the shared dictionaries one step at a time, the dictionaries with CPython's rules for iterators over a dictionary that changes, and the system of any number of threads. Claims by invariants over executions (`Lemmas/MemConcNonce`, `MemConc`, `MemConcKept`): accepted calls with one nonce overlap (`Prompt` assumes something of the clock only; `Lemmas/MemConcPrompt`: the programs mind the window), what lookups answer and which exceptions may come, when a stored association is found; `Lemmas/MemConcAlone`: undisturbed, an operation is that of `Model/MemStore`. What the claims leave out does happen: executions are exhibited (`Lemmas/MemConcPlay`). Trusted: single dictionary accesses are atomic, as under the interpreter's lock.
* **C84** How association types are negotiated — `Spec/Negotiate`: what is a suggestion, what is asked for, what the request's association is; the whole of `beginWithoutDiscovery` is shown to do exactly that, in both directions (a suggestion that is permitted is taken, an association that is granted is used). A negative result on the provider and the consumer together: `c84_own_refusal` (the provider's refusal has HTTP status 200, openid/server/server.py:1346-1349, the consumer expects 400).
* **C85** When an XRD expires, and what a list of services is expanded to — `Props/Expiry`; the reading of times is that of C15 (`IsNonceTime`), the expansion of one service that of C70.
* **C86** The example provider answers yes only to what its visitors said yes to — `Model/Provider` (a visit takes what the program keeps to what is shown and what it keeps then), `Spec/Provider` (histories of visits with what was shown; `Pending`, `Remembered`); an invariant over histories says that what is kept was said; the answers themselves are those of C35.
* **C87** Exceptions of the file store — a predicate over programs (all replies the system may give), then the invariants of C18 and C21 for what other processes can do (`Props/FileRaise`).
* **C88** Opening a file store among other processes — `Model/FileSetup` (`os.makedirs` of CPython included, directories are only made); an invariant in terms of the directories known to be there.
* **C89** What a completion changes outside — `Spec/Completion` (`Steps`) gives the five kinds of calls in order; every step is followed for every reply (`Lemmas/Completion`); for the nonce, the run with the other answer of the store is constructed, so that everything else is known to be verified.
* **C90** The example relying party — `Model/Visitor` puts sessions and pages around `begin` and `complete`; `Spec/Visitor` (`Reached`) is a history of visits, `SaysVerified` looks at the page alone, `Inert` at the characters of the message. The conditions of a success are those of C37; that no response is reported twice is C38, carried over to visits.
* **C91** What beginning a login does outside — `Spec/Beginning` (`Begun`) gives the four kinds of calls in order, `Offered` the services of the session or of discovery; every step is followed for every reply, as for C89.
* **C92** The documents of the example provider are found — `Model/Published` gives the trees of the documents and of the heads of the pages, `Spec/Published` what a site that shows them answers; that parsers make these trees of the texts is assumed (`ShowsPage`, `ShowsDocument`), and does not hold for a name with markup in it, as examples/server.py does not escape it.  `discover_located` follows discovery once for both addresses.

## What is modelled

| /repo/openid | model | left out |
|---|---|---|
| association.py | `Model/Association` | `__repr__`, bytes arguments (deprecated) |
| cryptutil.py | `Model/Cryptutil`, `Base/Base64` | deprecated aliases (`longToBinary`, `binaryToLong`), random numbers (arguments) |
| dh.py | `Model/DH` | the `cryptography` package (parameter `Lib`), deprecated `xorSecret` |
| extension.py, message.py | `Model/Message`, `Model/Extend` | lists as values, bytes arguments; `toFormMarkup` is in `Model/Form` |
| kvform.py | `Model/KVForm` | conversion of non-text keys and values, log texts |
| oidutil.py | `Model/Oidutil`, `Model/Form` | `log`, `Symbol`, conversions of bytes |
| urinorm.py | `Model/Urinorm` | Python 2 branches |
| fetchers.py | `Model/Fetchers` | what libcurl, urllib, httplib2 and requests do with one request (parameter) |
| consumer/consumer.py | `Model/Consumer` | texts of errors, deprecated attributes, subclasses |
| consumer/discover.py | `Model/Discover`, `Model/Endpoint` | logging |
| extensions/ax.py | `Model/Ax` | what a method that raises left in the object |
| extensions/pape.py, draft/pape2.py, draft/pape5.py | `Model/Pape` | as for ax.py |
| extensions/sreg.py, sreg.py | `Model/Sreg` | as for ax.py |
| server/server.py | `Model/Server` | texts of errors, subclasses |
| ../examples/server.py (lines 132-231, 334-339, 429-506) | `Model/Serve`, `Model/Provider`, `Model/Published` | its other pages and their bodies, the HTTP server, reading of cookies |
| ../examples/consumer.py (lines 53-291) | `Model/Visitor` | the other addresses, the HTML around a message, reading of cookies, the headers |
| server/trustroot.py | `Model/TrustRoot`, `Model/Filters` | `__repr__`; in `Model/TrustRoot` discovery is a parameter |
| store/memstore.py | `Model/MemStore` | |
| store/filestore.py | `Model/FileStore`, `Model/FileSetup`, `Base/FileSystem` | `normpath` of the directory |
| store/nonce.py | `Model/Nonce` | the random salt (argument) |
| store/sqlstore.py | `Model/SqlStore`, `Model/SqlText`, `Base/Sql` | lengths of columns (but for the MySQL prefix and the check on secrets), collations, 32 bit integers, table names given as bytes |
| yadis/accept.py | `Model/Accept` | `nan` |
| yadis/discover.py, parsehtml.py, services.py | `Model/Discover` | the HTML parser (parameter) |
| yadis/etxrd.py | `Model/Etxrd`, `Base/Xml` | the XML parser (a tree is given), `mkXRDSTag` |
| yadis/filters.py | `Model/Filters`, `Model/Endpoint` | |
| yadis/manager.py | `Model/Manager` | |
| yadis/xri.py, xrires.py | `Model/Xri` | the proxy's address is fixed |

## Trusted base

* The kernel of Lean 4.33.0.  The theorems depend on no axioms but `propext`, `Classical.choice` and `Quot.sound` (`vcheck` prints
  them with `#print axioms`); there is no `sorry`, `native_decide` or `bv_decide`, and no axiom is added.
* The reading of the code.  Nothing was run: the model was written from the source text, definition by definition.  A wrong
  reading would make a theorem say something about another program.
* The reading of CPython: `urllib.parse`, `str` methods, `int()`, `base64`, `time.strptime`/`strftime`, `re` for the patterns used,
  from the CPython 3.11 source and documentation.  The limit on the number of digits of `int()` is not modelled.
* The operating system under the file store: system calls are atomic, `listdir` is a snapshot, `read` returns the whole file,
  `O_EXCL` creation and `rename` are atomic as POSIX says.  File modes, links and network file systems are not modelled.
* The databases under the SQL store: a transaction takes effect as a whole or not at all, and transactions are serialised.  What
  they make of a statement is `Base/Sql`: which texts are statements, what these do, that names differing in case are the same
  table, that PostgreSQL wants arguments of the type of the column, and how drivers pass byte strings (`Engine`), from the
  documentation of SQLite, MySQL, PostgreSQL, sqlite3, MySQLdb and psycopg2.  `CREATE TABLE` is taken to be part of its transaction
  (MySQL commits before it).
* Parsers of XML and HTML (lxml), IDNA, Unicode tables, the hash functions and HMAC, `cryptography` and the HTTP libraries:
  parameters, about which nothing is assumed but what a theorem states as a hypothesis.
* How lxml writes an element whose attributes were set (`Form.escapeChar`, `Form.xmlChar`, order of attributes), from its documentation
  and that of libxml2; which attribute names it accepts is a parameter.
* What a theorem's specification says (`Verif/Spec/*`) has to be read by a person; it is kept small for that.

## Where the code falls short of a property

Each of these is a theorem with a concrete witness.

* `c05_padding_not_btwoc`: a library that pads the shared element (as OpenSSL does) gets another hash than the specification asks for.
* `c06_fragment_swallows_args`: `appendArgs` puts arguments inside a fragment.
* `c07_sreg_literal_breaks`: a message that declares the literal `sreg` as a namespace changes when sent back.
* `c12_comma_breaks`: a field name with `,sig` makes a freshly signed message fail its check; `c12_bare_sig_breaks` likewise.
* `c15_not_canonical`: two different nonce texts are read as the same time and salt.
* `c17_clock_back`: after a cleanup, a clock set back lets a nonce in again (memory store).
* `c18_bad_url`: a server URL without `://` makes `useNonce` of the file store raise.
* `c19_mysql_prefix`: with MySQL, servers whose URLs share 255 bytes share nonces; `c19_stale_clock`: a client held up between clock and insert.
* `c20_may_be_expired`: the memory store returns expired associations.
* `c21_power_lost`: `fsync` runs before the buffer is flushed: a stored association can be lost with the power.
* `c22_prefix_confused`: file names of one server can be a prefix of another's if schemes are not restricted; `c22_outside`: a scheme that is a path leaves the directory.
* `c23_file_tie`: two associations of the same second make lookups without a handle raise `TypeError` (file store; `c23_tie_raises`: SQL store).  `c74_tie_raises`: after two logins that began at once with the same provider, `begin` raises it for every user until one of the two associations expires. `c74_anonymous_next`: after an anonymous success the session still holds the services not tried, and the next `begin` asks the next of them instead of the one that worked.
* `c26_ipv6_broken`: `urinorm` drops the brackets of IPv6 literals; `c26_host_not_idempotent`, `c26_host_changes`, `c26_port_appears`, `c26_fragment_not_idempotent`, `c26_empty_host`: percent-decoding after splitting changes the host, the port or the fragment.
* `c27_any_host`: the realm of a single star matches every host; `c29_star_raises`: `verifyReturnTo` raises for it.
* `c31_race`: two `check_authentication` requests served at once can both be told the signature is valid.
* `c34_alias_raises`: queries with bad aliases raise other exceptions than `ProtocolError` (`c34_dot_raises`, `c34_twice_raises`).
* `c35_v1_immediate_raises`: the negative answer to an immediate OpenID 1 request without a claimed identifier raises (`c35_no_identity_immediate_raises` likewise).
* `c37_signon_1_1_raises`: `complete` raises `KeyError` for the namespace signon/1.1, `ValueError` for an empty signature (`c37_empty_sig_raises`).
* `c37_path_parameters_ignored`: the return URL is compared without its path parameters.
* `c87_before_1970`: a nonce from before 1970 makes every later `cleanupNonces` of the file store raise `ValueError`.
* `c38_memory_race`: with a memory store shared by threads two completions of one response can both succeed.
* `c40_unlisted_type`: an association type the negotiator does not list can be stored; `c40_plain_reply_to_dh`: an OpenID 1 reply is taken without encryption; `c40_no_types_raises`.
* `c43_not_by_version`: services are not sorted by version as documented.
* `c45_update_lost`: the update URL of a fetch request is not sent; `c45_store_response_unreadable`, `c45_bad_realm`, `c45_empty_alias`, `c45_alias_clash`, `c45_assertion`, `c45_negative_count`.
* `c47_misused_alias`: `KeyError` even when not strict; `c47_ns_alias`, `c47_time_newline`, `c47_empty_response`, `c47_nist_text`, `c47_bad_policies`.
* `c48_rounded_away`: a small quality is written as zero; `c48_no_types`, `c48_other_parameter`, `c48_case`.
* `c49_raises`: some documents raise other exceptions than `XRDSFraud`; `c49_capitals`: an authority with capitals is never responsible.
* `c50_relative`: a relative redirect is refused; `c50_endless`: only the clock bounds redirects; `c50_continue_twice`.
* `c55_not_normalised`: an endpoint keeps the fragment of the page's address.
* `c56_media_type_parameter`: an XRDS document whose media type has a parameter is not recognised; `c56_empty_location`.
* `c57_empty_type`: one empty type and nothing of the document is read; `c58_first_only`, `c59_empty_conflicts`.
* `c60_value_error`: discovery raises `ValueError`, `LookupError` and `AttributeError` (`c60_lookup_error`).
* `c61_fragment`: XRI arguments are put behind a fragment; `c61_last_reply`, `c61_op_identifier`.
* `c62_openid1_lost`: extensions other than simple registration do not arrive in OpenID 1.
* `c63_return_to_needed`: a request from `begin` always needs a return URL, though OpenID 2 does not ask for one.
* `c64_attrs`: `accept-charset` and `enctype` cannot be overridden as documented; `c64_title_not_escaped`: the title of the page is not escaped.  `c52_browser`: a long OpenID 2 answer with a control character in it cannot be sent at all (ValueError).
* `c65_openid1_relabelled`: in OpenID 1 an unsigned namespace declaration added on the way moves signed extension data to another extension.
* `c66_handle_raises`: a line end in the handle asked about makes the encoding of the answer raise `KVFormError`; `c66_type_raises`: so does one in the association type; `c66_key_raises`: an empty public key raises `ValueError` after the association was stored; `c66_unsupported_raises`: `handleRequest` raises `ProtocolError` for OpenID 1.
* `c67_nobody_raises`: an OpenID 1 assertion without a pending request raises `RuntimeError`; `c67_reply_raises`: a reply of the provider that is not UTF-8, or of another version, raises out of `complete`; `c67_signature_raises`: a line end in a signed value raises `KVFormError`; `c67_url_raises`, `c67_names_raises`, `c67_between_raises`; `c67_anonymous_raises`: an anonymous OpenID 1 request is refused only after it was put into the session as pending.
* `c90_injection`: the example relying party writes `openid.error` into its page as it is; `c90_chosen_cookie`: it takes any session id; `c90_no_identifier`: it breaks on a genuine response about no identifier.  (Not theorems: `writeUserHeader`, called at examples/consumer.py:209, does not exist, and the form at line 217 is sent without headers.)
* `c68_implied_raises`, `c68_twice_raises`, `c68_self_raises`, `c68_name_raises`: parsing raises exceptions (`AssertionError` among them) for remote input.
* `c70_functions_last`: functions in a list of filters come after the lists beside them, wherever they stand.
* `c71_empty_type`: return URL verification raises `AttributeError` for a service with an empty type; only `DiscoveryFailure` and fetching errors are documented.
* `c75_setup_needed` (last part): the URL at which the user can be asked carries the request again, but without the data of extensions, so a simple registration or attribute exchange request of an immediate request is lost once that is refused.
* `c79_dropped`: dropping the fragment for display also drops an empty query or empty path parameters before it, and raises `ValueError` for an address that cannot be split.
* `c80_defaults`: an SQL store cannot be made with the default table names: left out, they are `None`, and the constructor raises `AssertionError`.  (Empty texts give the defaults.)  By `SqlText.checkExceptions` a connection without exception classes raises `AttributeError` for SQLite, not the `RuntimeError` it has for this.
* C85: `getXRDExpiration` raises `TypeError` for an empty element and `ValueError` for a leap second (`c85_errors` and the example after it), and `expandServices` lists services without a URI (`c85_services`), against their documentation.
* `c86_anybody`, `c86_remembered_for_others`, `c86_nobody_shared`, `c86_not_here`: what the example provider does not check.
* `c80_postgres_bytes`: the PostgreSQL store encodes texts before it hands them to the driver; under Python 3 psycopg2 sends byte strings as `bytea`, which PostgreSQL does not compare with or store in a `varchar`, so that every operation with a text argument fails.
* `c80_long_secret`: the PostgreSQL store raises `IntegrityError` for a shared secret of more than 128 bytes, whose length the provider chooses.
* `c81_postgres_race`: with PostgreSQL two clients storing the same association at once: one raises `IntegrityError`.  `c81_postgres_lost`: `storeAssociation` returns and nothing is stored, when another client cleans up an expired row of that handle between its SELECT and its UPDATE.  `c81_held_up`: a client held up between its clock reading and its INSERT past the end of the window can have a used nonce accepted again, once a cleanup removed the row.
