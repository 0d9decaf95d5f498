{"id": "C01", "title": "KV form is unambiguous and parses back", "statement": "Whenever seqToKV accepts a sequence of pairs, kvToSeq of its output returns exactly the same pairs in the same order, each key and value stripped of surrounding whitespace; in strict mode the result is the input itself. dictToKV followed by kvToDict gives back the dictionary, provided its keys and values have no surrounding whitespace.", "quantifier": "all sequences of (key, value) text pairs and both values of the strict flag", "why_tests_cant": "the space of keys and values is unbounded; delimiters, blank lines and whitespace can occur anywhere", "anchors": ["openid/kvform.py:seqToKV", "openid/kvform.py:kvToSeq", "openid/kvform.py:dictToKV", "openid/kvform.py:kvToDict"]}
{"id": "C02", "title": "KV form accepts exactly the unambiguous pairs, and distinct pairs have distinct encodings", "statement": "seqToKV succeeds (non-strict) iff no key contains a newline or colon and no value contains a newline; strict mode additionally requires no surrounding whitespace. Two accepted sequences with the same encoding are equal.", "quantifier": "all pairs of sequences of text pairs", "why_tests_cant": "injectivity relates every two inputs; a test compares a few", "anchors": ["openid/kvform.py:seqToKV"]}
{"id": "C03", "title": "Binary integer encoding round-trips and is canonical", "statement": "For every natural n, int_to_bytes(n) is non-empty, has its top bit clear, has no redundant leading zero byte, and bytes_to_int(int_to_bytes(n)) = n; for every non-empty byte string b, bytes_to_int(fix_btwoc(b)) = bytes_to_int(b), and int_to_bytes(bytes_to_int(b)) = b when b is canonical.", "quantifier": "all natural numbers of any size and all non-empty byte strings", "why_tests_cant": "sign-bit and padding boundaries occur at every power of 256", "anchors": ["openid/cryptutil.py:int_to_bytes", "openid/cryptutil.py:bytes_to_int", "openid/cryptutil.py:fix_btwoc"]}
{"id": "C04", "title": "Base64 and numeric base64 round-trip", "statement": "fromBase64(toBase64(b)) = b for every byte string, toBase64 output contains no newline, and base64ToLong(longToBase64(n)) = n for every natural n.", "quantifier": "all byte strings of any length, all natural numbers", "why_tests_cant": "all three padding residues times all contents", "anchors": ["openid/oidutil.py:toBase64", "openid/oidutil.py:fromBase64", "openid/cryptutil.py:longToBase64", "openid/cryptutil.py:base64ToLong"]}
{"id": "C05", "title": "Diffie-Hellman secret transport is exact", "statement": "For every modulus, generator, pair of private keys, hash function and secret whose length equals the hash length, the consumer recovers exactly the secret the server encrypted; when the lengths differ an error is raised rather than a truncated secret being used. A peer public key that is not base64 of a number, or that the cryptographic library refuses, is a ValueError. The bytes that are hashed always denote the shared group element; they are its btwoc form, as the OpenID specification requires, exactly when the cryptographic library did not pad them with a needless zero byte (a padding library breaks interoperability: a counterexample is proved).", "quantifier": "all moduli, generators, private exponents, secrets and hash functions", "why_tests_cant": "agreement is an algebraic law of modular exponentiation and xor, over an unbounded domain", "anchors": ["openid/dh.py:DiffieHellman", "openid/dh.py:strxor", "openid/server/server.py:DiffieHellmanSHA1ServerSession", "openid/consumer/consumer.py:DiffieHellmanSHA1ConsumerSession"]}
{"id": "C06", "title": "URL query encoding round-trips and appendArgs keeps every argument", "statement": "Parsing the form encoding of any list of (key, value) text pairs gives the same list. For a URL without a fragment, parsing the query of appendArgs(url, args) yields the URL's own arguments followed by args (sorted when given as a mapping), and no argument can inject another. For a URL with a fragment everything before the '#' is unchanged and the arguments are added to the end of the fragment, so that they are not in the query at all.", "quantifier": "all texts including '&', '=', '%', '+', non-ASCII; all argument lists; all URLs with and without fragment", "why_tests_cant": "escaping must be right for every character in every position", "anchors": ["openid/oidutil.py:appendArgs", "openid/message.py:Message.toURL", "openid/message.py:Message.toURLEncoded"]}
{"id": "C07", "title": "A protocol message survives parse and re-serialisation", "statement": "For every argument dictionary accepted by Message.fromPostArgs, toPostArgs returns the same dictionary (same keys, same values), for OpenID 1 and 2, for every extension namespace and alias, so long as no namespace is declared as the literal 'sreg'.", "quantifier": "all argument dictionaries", "why_tests_cant": "namespace aliases, implicit namespaces and bare arguments interact; the dictionary space is unbounded", "anchors": ["openid/message.py:Message.fromPostArgs", "openid/message.py:Message.toPostArgs", "openid/message.py:Message._fromOpenIDArgs"]}
{"id": "C08", "title": "Namespace aliases stay a one-to-one map", "statement": "After any sequence of alias additions (explicit, implicit or generated), no two namespace URIs share an alias and no URI has two aliases; a failed addition changes nothing; an alias once assigned is never reassigned; generated aliases are fresh and 'add' always terminates.", "quantifier": "all histories of operations on a NamespaceMap", "why_tests_cant": "the invariant must survive every interleaving of successful and failing operations", "anchors": ["openid/message.py:NamespaceMap"]}
{"id": "C09", "title": "Message arguments behave like a map keyed by namespace and key", "statement": "getArg returns the value most recently set by setArg for that (namespace, key) and None/default if never set or deleted; operations on one (namespace, key) never disturb another; protocol arguments are never visible through an extension namespace, nor bare arguments through a protocol namespace.", "quantifier": "all histories of setArg, delArg and updateArgs over all namespaces and keys", "why_tests_cant": "needs every history of updates", "anchors": ["openid/message.py:Message.setArg", "openid/message.py:Message.getArg", "openid/message.py:Message.delArg", "openid/message.py:Message.updateArgs"]}
{"id": "C10", "title": "Association serialisation round-trips and rejects everything else", "statement": "deserialize(serialize(a)) equals a for every association whose fields are serialisable; any text accepted by deserialize has exactly the six expected keys in order and version 2.", "quantifier": "all associations (any handle, secret bytes, issue time, lifetime, type) and all texts", "why_tests_cant": "secrets and handles are arbitrary; the parser sees arbitrary file contents", "anchors": ["openid/association.py:Association.serialize", "openid/association.py:Association.deserialize"]}
{"id": "C11", "title": "Association expiry is exact and monotone", "statement": "The remaining lifetime is never negative, never increases as time passes, is zero exactly from issued+lifetime on, and once an association is expired it stays expired.", "quantifier": "all associations and all instants", "why_tests_cant": "boundary at an arbitrary instant; monotonicity relates all pairs of instants", "anchors": ["openid/association.py:Association.getExpiresIn", "openid/association.py:Association.fromExpiresIn"]}
{"id": "C12", "title": "A message signed with an association verifies, and signing covers every protocol field", "statement": "If signMessage succeeds, checkMessageSignature on the result with the same association returns True, provided no openid.* field name of the message, cut at its commas, has a part called sig; the signed list names every openid.* field of the result except sig and names containing a comma; nothing but assoc_handle, signed and sig changes; an already signed message, or one carrying another handle, is refused; any other message whose openid.* names and values fit key-value form is signed. Without the proviso the claim is false: a field called 'x,sig' or a bare argument 'openid.sig' makes the fresh signature fail.", "quantifier": "all messages and associations; the MAC is an arbitrary function", "why_tests_cant": "must hold for every set of fields, in any order and namespace", "anchors": ["openid/association.py:Association.signMessage", "openid/association.py:Association.checkMessageSignature"]}
{"id": "C13", "title": "Tampering with a signed field is detected unless the MAC collides", "statement": "If two messages carry the same signature and both verify under one association, then either the MAC has collided on two different inputs, or the messages have the same signed list and agree on every field named in it (absent and empty being identified).", "quantifier": "all pairs of messages, all associations, all MAC functions", "why_tests_cant": "quantifies over all modifications an attacker can make", "anchors": ["openid/association.py:Association.checkMessageSignature", "openid/association.py:Association._makePairs", "openid/kvform.py:seqToKV"]}
{"id": "C14", "title": "Session negotiation never allows an invalid or unlisted pair", "statement": "After any sequence of configuration calls, isAllowed(a, s) is true only for a pair that was explicitly allowed (or expanded from an allowed association type) and that is a valid association/session combination; getAllowedType returns the first configured pair; a failing configuration call leaves the policy unchanged. The default negotiator allows every valid pair and the encrypted one every valid pair with encryption; both prefer HMAC-SHA256 with DH-SHA256.", "quantifier": "all histories of setAllowedTypes and addAllowedType calls", "why_tests_cant": "histories with failures in the middle of a list", "anchors": ["openid/association.py:SessionNegotiator"]}
{"id": "C15", "title": "Nonce strings round-trip through their timestamp", "statement": "For every time representable with a four-digit year, the nonce produced for that time splits back into exactly that time and the salt; split rejects negative times and malformed text with ValueError.", "quantifier": "all timestamps from 1970 to the end of year 9999 and all salts", "why_tests_cant": "calendar arithmetic has irregular boundaries (leap years, centuries)", "anchors": ["openid/store/nonce.py:mkNonce", "openid/store/nonce.py:split"]}
{"id": "C16", "title": "Nonce timestamp check is exactly the skew window", "statement": "checkTimestamp accepts a well formed nonce iff its timestamp lies within the allowed skew of now, both ends included, and rejects malformed nonces.", "quantifier": "all nonces, all current times, all skews", "why_tests_cant": "boundary conditions at arbitrary instants", "anchors": ["openid/store/nonce.py:checkTimestamp"]}
{"id": "C17", "title": "A nonce is accepted at most once by the memory store", "statement": "In any history of store operations with a non-decreasing clock, including cleanups, useNonce returns True at most once for each (server_url, timestamp, salt), and only within the skew window; an in-window nonce not used before is accepted.", "quantifier": "all operation histories with non-decreasing time", "why_tests_cant": "replay may be separated by arbitrarily many operations and cleanups", "anchors": ["openid/store/memstore.py:MemoryStore.useNonce", "openid/store/memstore.py:MemoryStore.cleanupNonces"]}
{"id": "C18", "title": "A nonce is accepted at most once by the file store under concurrency", "statement": "For any number of processes running useNonce and cleanup interleaved at system-call granularity, and crashing anywhere, with a non-decreasing clock and no hash collision, at most one useNonce call for a given (server_url, timestamp, salt) returns True, provided the clock does not move out of the five hours around the timestamp while a useNonce call with that timestamp is going on (or no cleanup runs).  Without the proviso two calls can both return True.", "quantifier": "all interleavings of any number of processes, all crash points", "why_tests_cant": "the interleavings and crash points are unbounded", "anchors": ["openid/store/filestore.py:FileOpenIDStore.useNonce", "openid/store/filestore.py:FileOpenIDStore.cleanupNonces"]}
{"id": "C19", "title": "A nonce is accepted at most once by the SQL store", "statement": "For any interleaving of transactions (each atomic) of any number of clients with a non-decreasing clock, useNonce returns True at most once per (server_url, timestamp, salt), including across cleanupNonces.", "quantifier": "all histories of transactions", "why_tests_cant": "unbounded histories with failures and rollbacks", "anchors": ["openid/store/sqlstore.py:SQLStore.txn_useNonce", "openid/store/sqlstore.py:SQLStore.txn_cleanupNonces"]}
{"id": "C20", "title": "The memory store behaves like a map from (server, handle) to association", "statement": "After any history, getAssociation(server, handle) returns the last association stored under that server and handle unless it was removed or cleaned up since; getAssociation(server) returns one of maximal issue time; operations on one server do not affect others; cleanup removes exactly the expired ones and reports their number.", "quantifier": "all operation histories", "why_tests_cant": "refinement must hold for every history", "anchors": ["openid/store/memstore.py:MemoryStore"]}
{"id": "C21", "title": "Association files are replaced atomically", "statement": "With any number of processes, failures of system calls and crashes anywhere, every association file is a complete stored association, and what a reader gets is an association stored for that server (and handle), exactly as stored.  At every crash point of storeAssociation, on a system where renaming replaces the target, all names read as before or only the one name has changed to the complete new association; it has changed if the call returned and not if it raised; on Windows the name may also be missing.  A call that ends leaves no temporary file behind if files can be removed.  After a power loss readers still get complete associations or none, but one whose store had returned may be lost.", "quantifier": "all crash points, all previous contents, all concurrent readers and writers", "why_tests_cant": "crash points and interleavings", "anchors": ["openid/store/filestore.py:FileOpenIDStore.storeAssociation", "openid/store/filestore.py:FileOpenIDStore._getAssociation"]}
{"id": "C22", "title": "Association and nonce file names never confuse two keys", "statement": "Absent a hash collision, two different (server_url, handle) pairs map to different association files, and, for URLs whose scheme has no dash, a lookup without handle for one server only sees that server's files; the files are inside the store's directories for URLs whose scheme has no slash.", "quantifier": "all server URLs and handles", "why_tests_cant": "depends on the escaping of arbitrary texts", "anchors": ["openid/store/filestore.py:FileOpenIDStore.getAssociationFilename", "openid/store/filestore.py:_filenameEscape", "openid/store/filestore.py:_safe64"]}
{"id": "C23", "title": "File and SQL stores never return an expired association", "statement": "In any history of calls with a non-decreasing clock, getAssociation never returns an expired or removed association: with a handle it returns the one last stored and not removed if its lifetime is not over, otherwise None, and the expired ones it meets are deleted; without a handle it returns an unexpired association of maximal issue time if there is one (and raises TypeError exactly when two unexpired ones were issued in the same second).", "quantifier": "all store contents, all instants", "why_tests_cant": "expiry may fall anywhere relative to the calls", "anchors": ["openid/store/filestore.py:FileOpenIDStore.getAssociation", "openid/store/sqlstore.py:SQLStore.txn_getAssociation"]}
{"id": "C24", "title": "SQL store operations are all-or-nothing", "statement": "If any statement of a store operation raises, the database is left exactly as before the operation and the exception propagates; otherwise all effects are committed.", "quantifier": "all database states, all failure points", "why_tests_cant": "failure may strike after any statement", "anchors": ["openid/store/sqlstore.py:SQLStore._callInTransaction"]}
{"id": "C25", "title": "Dot segments are removed from paths", "statement": "remove_dot_segments leaves no '.' or '..' segment in an absolute path, is idempotent, never climbs above the root, returns an absolute path for an absolute path, and does not change a path without dot segments.", "quantifier": "all paths", "why_tests_cant": "nesting of segments is unbounded", "anchors": ["openid/urinorm.py:remove_dot_segments"]}
{"id": "C26", "title": "urinorm produces a normalised http(s) URL or raises ValueError", "statement": "Every result of urinorm has a lower-case http or https scheme, a non-empty path starting with '/' without dot segments, a port written only if it is neither 0 nor the scheme's default, and no character outside the reserved/unreserved/percent set; anything else raises ValueError. For a URL whose host is a non-empty ASCII name without percent escapes or brackets, the result read back has the same scheme, user information, query arguments with a value and port (none for 0 or the default), the host in lower case and the decoded fragment; and normalising it again changes nothing, provided the fragment has no doubly escaped '%'. Each of these conditions is needed: an IPv6 literal loses its brackets, a percent escape in the host can produce upper case, another host or a default port, a lone default port an empty host (counterexamples are proved).", "quantifier": "all texts", "why_tests_cant": "unbounded input space with many escaping corner cases", "anchors": ["openid/urinorm.py:urinorm"]}
{"id": "C27", "title": "Realm matching is sound and exact", "statement": "For the normal forms of realm and URL, checkURL (parse and validateURL) is True iff the realm has no fragment and a star only as its leading label, scheme and port are equal, the URL's host has no star and equals the realm host or (wildcard realm) is the bare domain or ends with '.'+domain (a lone star matches every host), and its path equals the realm path or extends it at a '/', '?' or '&' boundary.  Otherwise it is False; it raises only if one of the two has no host or no valid port after normalisation.", "quantifier": "all parsed realms and all URLs", "why_tests_cant": "the security check must hold for every URL an attacker supplies", "anchors": ["openid/server/trustroot.py:TrustRoot.validateURL", "openid/server/trustroot.py:TrustRoot.parse"]}
{"id": "C28", "title": "Over-broad wildcard realms are not sane", "statement": "isSane is True exactly for localhost and for domains with non-empty labels, a known top-level domain and something below it, which for a wildcard over a two-letter top-level domain must be more than one short label; so it is False for every wildcard realm over a bare top-level domain or over a second-level registry domain such as *.co.uk, and for hosts outside the known top-level domains other than localhost.  It never raises on a parsed realm.", "quantifier": "all realms", "why_tests_cant": "the set of host names is unbounded", "anchors": ["openid/server/trustroot.py:TrustRoot.isSane"]}
{"id": "C29", "title": "Return-URL verification only accepts matching non-wildcard return URLs", "statement": "returnToMatches is True only if some listed URL parses as a realm without wildcard that covers the return_to, and False only if none does; verifyReturnTo is True only if discovery on the realm's discovery URL succeeded without redirect and such a URL was listed with the return_to service type; a redirected discovery always yields False and a failed one raises.", "quantifier": "all lists of allowed URLs, realms and discovery outcomes", "why_tests_cant": "all discovery outcomes of a remote party", "anchors": ["openid/server/trustroot.py:returnToMatches", "openid/server/trustroot.py:verifyReturnTo"]}
{"id": "C30", "title": "The server never lets check_authentication validate a shared association", "statement": "Over every history of server operations, check_authentication returns is_valid:true only for a signature made with an association the server kept private (stateless mode); a signature made with any association established through associate is never validated this way.", "quantifier": "all histories of associate, sign, verify, invalidate calls and all messages", "why_tests_cant": "an attacker picks the message; the history is arbitrary", "anchors": ["openid/server/server.py:Signatory", "openid/server/server.py:CheckAuthRequest.answer"]}
{"id": "C31", "title": "A stateless signature can be verified at most once", "statement": "When the server handles one request at a time, each private association handle yields is_valid:true at most once, over any history; after a check_authentication that was answered on a handle, verification with it fails. Two requests running at the same time are outside the claim: both can be told is_valid:true (c31_race).", "quantifier": "all sequential histories of requests, on any of the stores", "why_tests_cant": "replay after arbitrarily many other requests", "anchors": ["openid/server/server.py:CheckAuthRequest.answer", "openid/server/server.py:Signatory.invalidate"]}
{"id": "C32", "title": "Signing with an unknown or expired handle falls back to a fresh private association", "statement": "When the request names a handle that is unknown, expired or not a shared association, the response is signed with a private association and carries invalidate_handle equal to that handle; otherwise it is signed with the named association and carries no invalidate_handle.", "quantifier": "all stores, handles, instants and responses", "why_tests_cant": "expiry may occur between any two steps", "anchors": ["openid/server/server.py:Signatory.sign", "openid/server/server.py:Signatory.getAssociation"]}
{"id": "C33", "title": "Every positive assertion leaves the server signed, exactly once", "statement": "The signing encoder emits a message with mode id_res only after signing it with an association the store holds, once, and changing nothing else but a possible invalidate_handle; it sends everything else as it is without touching the store; and it raises AlreadySigned, doing nothing, for such a message that already carries a signature.", "quantifier": "all responses", "why_tests_cant": "all response shapes, namespaces, extension content", "anchors": ["openid/server/server.py:SigningEncoder.encode", "openid/server/server.py:OpenIDResponse.needsSigning"]}
{"id": "C34", "title": "Request decoding yields a request of the right kind or a protocol error", "statement": "Decoding an argument dictionary returns None only when it is empty. Otherwise the request is of the class the mode names and its fields are the arguments; a checkid request is returned exactly when return_to is a URL under the realm (else MalformedReturnURL, MalformedTrustRoot or UntrustedReturnURL) and, in OpenID 2, identity is there iff claimed_id is; an associate request exactly when the types fit together and the session can be made. Whatever else happens is a ProtocolError carrying a message to answer to, whose fields are the arguments, except: an AssertionError for an extension under a name that it cannot have (and, if the version is unknown, an InvalidNamespace for an extension that is there twice; see C68), a ValueError for OpenID 2 if the server was made without an endpoint, and the exceptions of the realm code (see C27) for a URL without a proper host or port.", "quantifier": "all argument dictionaries", "why_tests_cant": "arbitrary remote input", "anchors": ["openid/server/server.py:Decoder.decode", "openid/server/server.py:CheckIDRequest.fromMessage", "openid/server/server.py:AssociateRequest.fromMessage", "openid/server/server.py:CheckAuthRequest.fromMessage"]}
{"id": "C35", "title": "A positive answer never asserts an identity other than the one requested", "statement": "CheckIDRequest.answer(True, ...) yields an assertion whose identity and claimed_id are those requested, or those supplied when the request asked for identifier selection, or none if none was asked for, or raises; it carries return_to, a response_nonce made of the time and random characters, op_endpoint (always in OpenID 2) and nothing else. A negative answer carries mode cancel, or for an immediate request that the user has to be asked and the URL to do so, and no identity. A positive answer can be had for every decoded request; a negative answer to an immediate request cannot if the request has no claimed_id, as is usual in OpenID 1, or no identity: the call raises.", "quantifier": "all requests and arguments", "why_tests_cant": "all combinations of optional arguments", "anchors": ["openid/server/server.py:CheckIDRequest.answer"]}
{"id": "C36", "title": "Association requests honour the server's negotiator and establish a common secret", "statement": "openid_associate answers with an association only when the negotiator allows the pair, with the session's own encoding; the association it stores is the one whose handle and (decrypted) secret the consumer extracts from the answer; otherwise an unsupported-type error (OpenID 2) naming an allowed pair is returned. A relying party's session may have a Diffie-Hellman group of its own: the provider uses that group, and the secret is common all the same.", "quantifier": "all requests, negotiators, random choices, stores that keep what they are told, and consumers and providers with the same hash functions and Diffie-Hellman library", "why_tests_cant": "end-to-end agreement over all keys and secrets", "anchors": ["openid/server/server.py:Server.openid_associate", "openid/server/server.py:AssociateRequest.answer", "openid/consumer/consumer.py:GenericConsumer._extractAssociation"]}
{"id": "C37", "title": "A successful completion implies every verification step passed", "statement": "If complete returns SUCCESS then: the mode is id_res; all required fields are present, and those that must be signed are in the signed list; the return_to URL and the current URL have the same scheme, authority and path once normalised (path parameters after ';' are not compared), every query argument of return_to is in the response with its value, and every argument outside OpenID is one of them; the signature verified with an unexpired stored association, or the provider confirmed it when asked about exactly this message; the nonce was well formed and the store had not seen it; and the asserted claimed identifier, local identifier and endpoint match the session's endpoint or one discovered from the claimed identifier during the call. A response in any other mode is reported for what it says (cancel, the provider's error, setup needed) without asking anyone.", "quantifier": "all response messages, sessions, stores, discovery results and provider replies", "why_tests_cant": "an attacker controls the response; a test tries a few forgeries", "anchors": ["openid/consumer/consumer.py:GenericConsumer.complete", "openid/consumer/consumer.py:GenericConsumer._doIdRes"]}
{"id": "C38", "title": "No response is accepted twice", "statement": "Over any set of completions, however interleaved, against one store in which no nonce is taken twice (as holds for the memory and SQL stores with a clock that does not run backwards, and for the file store under the conditions of C18), at most one completion with a nonce of a given server, time and salt succeeds; in particular the same response is accepted at most once, whatever sessions and URLs it arrives at. Without a store nothing prevents a replay. This includes SQL stores with any number of connections at once, and memory stores shared by threads as long as no two calls with one nonce overlap; if they do, two completions of the same response can both succeed.", "quantifier": "all sets of completions, interleavings, stores and further calls of the store", "why_tests_cant": "replays at arbitrary distance", "anchors": ["openid/consumer/consumer.py:GenericConsumer._idResCheckNonce"]}
{"id": "C39", "title": "Only signed values are handed to the application when signed values are asked for", "statement": "In a response in which no namespace is the literal word 'sreg', getSigned returns a value only if the name it arrived under is in the signed list, and the value is the one the signature is made over; getSignedNS returns the namespace's arguments, all of them, only if every one of them is in the signed list, and None exactly when some argument is not.", "quantifier": "all messages, namespaces and keys", "why_tests_cant": "mixed signed and unsigned arguments in any alias", "anchors": ["openid/consumer/consumer.py:SuccessResponse", "openid/extensions/sreg.py:SRegResponse.fromSuccessResponse", "openid/extensions/pape.py:Response.fromSuccessResponse"]}
{"id": "C40", "title": "The consumer negotiates only allowed associations and stops", "statement": "Whatever the provider replies, starting a request sends at most two association requests, each to the endpoint's server and for a pair the consumer's negotiator allows; at most one association is stored, with the handle, type and lifetime of a successful reply to one of them whose session type is the one asked for (or which is in the OpenID 1 form, without encryption) and whose association type goes with that session, and with the secret the reply gives in the clear or by Diffie-Hellman with the public key that was sent. A reply in the namespace signon/1.1 may name the session type outside the OpenID arguments. Completing a request stores no association.", "quantifier": "all provider replies, stores, negotiators, endpoints and sessions", "why_tests_cant": "an adversarial provider can answer anything", "anchors": ["openid/consumer/consumer.py:GenericConsumer._negotiateAssociation", "openid/consumer/consumer.py:GenericConsumer._extractAssociation"]}
{"id": "C41", "title": "An honest run succeeds", "statement": "Take a request that the consumer made for an endpoint of known type with both identifiers (OpenID 1 or 2, anonymous or not, immediate or not), a realm and a return URL under it, whose parameters have different names outside of OpenID; there are no control characters or line ends in the identifiers, URLs and handles. The provider decodes the request, and if it answers yes, the answer, signed and sent whichever way, is accepted by that consumer: with an association both hold, and also without one, by asking the provider. The application is told of the endpoint it asked about. If the provider is to choose the user, its answer for any user is accepted as well, provided discovery on the claimed identifier finds the provider's endpoint for that identity; the application is then told of a discovered endpoint, with the claimed identifier of the answer.", "quantifier": "all endpoints, realms, return URLs, nonces, secrets, associations, clocks before the year 10000, states of the stores", "why_tests_cant": "composition of all layers for every value", "anchors": ["openid/consumer/consumer.py:AuthRequest.getMessage", "openid/server/server.py:Server", "openid/consumer/consumer.py:GenericConsumer.complete"]}
{"id": "C42", "title": "Discovered services are tried in order, each at most once", "statement": "Over any history of begin calls in one session, the services handed out for a URL are the discovered ones in order, none twice before rediscovery; a successful completion discards the remaining ones; different users' URLs do not share services.", "quantifier": "all histories of getNextService and cleanup, all discovery results", "why_tests_cant": "histories are unbounded", "anchors": ["openid/yadis/manager.py:Discovery", "openid/yadis/manager.py:YadisServiceManager"]}
{"id": "C43", "title": "Service ordering is a stable rearrangement by type preference", "statement": "arrangeByType returns exactly the same services, ordered by the best matching preferred type, keeping the original order among equals, with non-matching services last. What discovery returns are the services of type OP identifier first, then all others in the order found (not, as the documentation says, sorted by version).", "quantifier": "all lists of services and preferences", "why_tests_cant": "all lists", "anchors": ["openid/consumer/discover.py:arrangeByType", "openid/consumer/discover.py:getOPOrUserServices"]}
{"id": "C44", "title": "Priority ordering of XRDS elements is correct for every shuffle", "statement": "For every shuffle, prioSort returns a permutation of the elements with non-decreasing priority, elements without valid priority last, in shuffled order among equals; every such order is the outcome of some shuffle. The services of a document (those of its last XRD) and the URIs of a service come in such an order.", "quantifier": "all element lists, all shuffles", "why_tests_cant": "randomised implementation", "anchors": ["openid/yadis/etxrd.py:prioSort", "openid/yadis/etxrd.py:getPriority"]}
{"id": "C45", "title": "Attribute exchange messages say what was put in them, and arrive", "statement": "After any additions to a fetch request, some of which were refused (a type that was already asked for, an alias with a comma or a dot), every type is there once with its count, its flag and its alias. getExtensionArgs gives each type an alias of its own, which is the one it was given if it was given one, and lists exactly the types, the counts other than one, the required aliases and the other aliases. Any arguments are a fetch request exactly when the mode is right, no type has two aliases, the aliases are usable, each count is a positive number or unlimited, every listed alias has a type and every type is listed; the request then asks for exactly that. So a request with positive counts and non-empty aliases is read back, also after it was added to a message that was sent. The same holds of the values of a fetch response and a store request, after any addValue and setValues. A response to a request that was sent raises KeyError if it has a type that was not asked for and AXError if it has more values than were asked for; otherwise it has exactly the types that were asked for, under the same aliases, with their values. fromSuccessResponse gives exactly the values that arrived, and with signed only if every argument was signed. fromOpenIDRequest gives a request with a non-empty update_url only if the realm of the message (return_to if it has none) covers it. Exceptions: the update_url of a request is not sent; a request whose only alias is empty is not read back; a given alias ext0 may collide with a generated one; arguments that are not signed raise AttributeError; StoreResponse.fromSuccessResponse always raises; a realm that cannot be parsed raises AttributeError; aliases such as mode raise AssertionError.", "quantifier": "all histories of additions; all attributes, counts, aliases and values; all arguments; all messages that arrive", "why_tests_cant": "alias generation, value counts and orders of arguments are unbounded", "anchors": ["openid/extensions/ax.py:FetchRequest", "openid/extensions/ax.py:FetchResponse", "openid/extensions/ax.py:AXKeyValueMessage"]}
{"id": "C46", "title": "Simple registration requests stay well-formed and arrive; responses leak nothing", "statement": "After any history of requestField, requestFields and parseExtensionArgs calls, some of which failed, no field is listed twice, required and optional are disjoint, all fields are known, and the fields are those the calls asked for (a field once required stays required). A name is refused with ValueError exactly if it is unknown or, in strict mode, asked for already. parseExtensionArgs of getExtensionArgs, in any order, restores the request, but for an empty policy URL; a request added to an OpenID message is what fromOpenIDRequest makes of the message when it arrives (in OpenID 1, with the 1.1 namespace). extractResponse has exactly the requested fields that have a value; added to a message and signed it is what fromSuccessResponse gives when it arrives. fromSuccessResponse gives only known fields, as they arrived, and with signed_only only if every argument of the namespace was signed. It raises ValueError exactly if the message has no simple registration namespace and another extension has the alias sreg.", "quantifier": "all histories of calls; all arguments, all user data, all messages that arrive", "why_tests_cant": "histories", "anchors": ["openid/extensions/sreg.py:SRegRequest", "openid/extensions/sreg.py:SRegResponse", "openid/extensions/sreg.py:getSRegNS"]}
{"id": "C47", "title": "Authentication policy messages say the same to both sides", "statement": "A policy request or response, however it was built, always has an alias for each of its authentication levels, keeps the two well-known aliases for their levels, lists a policy added through its methods once, and refuses the policy that stands for none. Adding a level keeps a given alias if it is free, reuses the level's alias if none is given, otherwise takes the first free custN below 1000, and raises KeyError or RuntimeError exactly when an alias is taken by another level or none is left. The arguments of a request or response are exactly its policies, age or time, and its levels with their aliases; a time that is not of the form 2008-01-31T12:00:00Z is refused. Parsing arguments gives exactly what they say (strictly or not, in OpenID 1 with the well-known aliases implied), with exactly the documented conditions for ValueError, and KeyError exactly if a well-known alias is declared for another level. Hence policies without blanks, ages, times and levels survive a round trip and transport in a message; a relying party gets a response only if every argument of the extension is signed. preferredTypes is the subsequence of supported types that are preferred. The same for draft 2.", "quantifier": "all histories of calls on requests and responses, all argument dictionaries, all messages, both protocol versions, strict or not", "why_tests_cant": "unbounded lists of policies, levels and aliases, any argument names and texts", "anchors": ["openid/extensions/pape.py:Request", "openid/extensions/pape.py:Response", "openid/extensions/pape.py:PAPEExtension", "openid/extensions/draft/pape2.py:Request", "openid/extensions/draft/pape2.py:Response"]}
{"id": "C48", "title": "Content negotiation", "statement": "Reading an Accept header gives an entry for exactly its elements of the form type/subtype, with the first parameter q that is a number, or one; the best first. Matching available types with accepted ones returns exactly those whose quality is not zero, where the most specific entries for a type decide (the type itself, its main type with any subtype, any type), of several the greatest, and all types are good if there are no entries; in the order of the distance of the quality to one, equal ones in the given order; it fails exactly if an available type does not have exactly one slash. The acceptable types for a header do not depend on the order of its elements. Making a header fails exactly if a factor is not above zero or is above one, and reading a header that was made gives the given types with their factors as written. Exceptions: a factor that is written as zero makes the type unacceptable; a header without any type accepts everything; a parameter written Q or with a space does not count; types are compared with case.", "quantifier": "all headers, all lists of accepted and available types, all ordered numbers (nan excluded)", "why_tests_cant": "all headers and lists, in all orders", "anchors": ["openid/yadis/accept.py:generateAcceptHeader", "openid/yadis/accept.py:parseAcceptHeader", "openid/yadis/accept.py:matchTypes", "openid/yadis/accept.py:getAcceptable", "openid/yadis/constants.py:YADIS_ACCEPT_HEADER"]}
{"id": "C49", "title": "A CanonicalID is returned only if every authority in the chain delegates to the next", "statement": "getCanonicalID returns an identifier exactly when every XRD has a CanonicalID, each extends that of the XRD before it by one '!' segment, and the first that of the root authority of the name being resolved; it is the last one. There is none exactly if there is no XRD or the last has no CanonicalID. Every other document raises: XRDSFraud if every XRD has a CanonicalID with a '!', else possibly ValueError, AttributeError or IndexError.", "quantifier": "all XRDS documents and names", "why_tests_cant": "chains are unbounded", "anchors": ["openid/yadis/etxrd.py:getCanonicalID", "openid/yadis/xri.py:providerIsAuthoritative"]}
{"id": "C50", "title": "Fetching over redirects", "statement": "However many rounds the curl fetcher makes and whatever it is answered, its requests follow the redirects from the given URL, every URL it requests starts with http:// or https:// and is the normal form of the URL followed, all carry the given headers with a User-Agent unless that is given, only the first request sends the body, and it ends exactly as the clock (twenty seconds), the next URL or the last answer say; it returns the last answer, which is no redirect, with the last URL. Headers are read back as sent, names in lower case, after at most one '100 Continue'. The urllib and httplib2 fetchers refuse other URLs; every fetcher sends the URL, the body and the headers that it is given; the default fetcher is the last one set and raises nothing but HTTPFetchingError unless set otherwise. Exceptions: relative locations and capital schemes are refused; while the clock stands still redirects are followed without end; the final URL is not in its normal form; an empty body is a GET for some fetchers and a POST for others; the requests fetcher does not check URLs.", "quantifier": "all redirect chains, clocks, answers, numbers of rounds, header blocks, histories of setting the default", "why_tests_cant": "redirect chains are unbounded and adversarial", "anchors": ["openid/fetchers.py:CurlHTTPFetcher.fetch", "openid/fetchers.py:CurlHTTPFetcher._parseHeaders", "openid/fetchers.py:Urllib2Fetcher.fetch", "openid/fetchers.py:HTTPLib2Fetcher.fetch", "openid/fetchers.py:setDefaultFetcher", "openid/fetchers.py:ExceptionWrappingFetcher"]}
{"id": "C51", "title": "Errors are reported through the channel the request allows", "statement": "A protocol error is encoded as a redirect (or, in OpenID 2 when the URL would be too long, a form) to return_to exactly when the request had one; else as a key-value body with status 400 when the request's mode is one of direct communication; else EncodingError tells the application to show it. What is sent is of the version of the request and carries mode error, the text, contact and reference, and nothing else.", "quantifier": "all requests and errors", "why_tests_cant": "arbitrary malformed input", "anchors": ["openid/server/server.py:ProtocolError"]}
{"id": "C52", "title": "Response encoding is determined by the request", "statement": "A response to a browser (checkid) request is sent as a redirect to return_to or, for OpenID 2 only and only when the URL is too long, as a page whose only form posts exactly the response there at once (a response that has to be a form but has characters no page can have is refused with ValueError); other responses are sent as key-value form with status 200, errors with 400. A checkid request whose URL is asked for without the address of a server raises AssertionError.", "quantifier": "all responses", "why_tests_cant": "length boundary and all namespaces", "anchors": ["openid/server/server.py:OpenIDResponse.whichEncoding", "openid/server/server.py:Encoder.encode"]}
{"id": "C53", "title": "KV parsing reads exactly the well-formed lines", "statement": "Lenient kvToSeq never raises and returns, in order, exactly the text before and after the first colon (stripped) of every line that has a colon. Strict kvToSeq succeeds iff the text is empty or ends with a newline and every line is blank or key:value with a non-empty key and no surrounding whitespace around key or value, and then returns the same pairs; otherwise it raises KVFormError.", "quantifier": "all texts", "why_tests_cant": "it describes the parser on every input, including malformed ones sent by a peer", "anchors": ["openid/kvform.py:kvToSeq"]}
{"id": "C54", "title": "The SQL store's table is an exact map of what was stored", "statement": "After any history of calls, some of which may fail, the rows of the associations table are the associations last stored and not removed, minus the expired ones a lookup met and those a cleanup found ended; removeAssociation answers whether the row was there, and cleanupAssociations answers the number of rows it deletes.", "quantifier": "all histories of calls with failures at any statement, for the three databases (with MySQL, URLs of at most 255 bytes)", "why_tests_cant": "the refinement must hold for every history and failure point", "anchors": ["openid/store/sqlstore.py:SQLStore.txn_storeAssociation", "openid/store/sqlstore.py:SQLStore.txn_removeAssociation", "openid/store/sqlstore.py:SQLStore.txn_cleanupAssociations", "openid/store/sqlstore.py:PostgreSQLStore.db_set_assoc"]}
{"id": "C55", "title": "Discovery makes no endpoint for another user", "statement": "Whatever the pages fetched say, every endpoint that discover on a URL returns has the final address of the page fetched for that URL as its claimed identifier; or, for services where the user chooses an identifier at the provider, no claimed and no local identifier. Each has a known service type, no CanonicalID and no display identifier. The identifier returned beside the endpoints is the normal form of that address.", "quantifier": "all identifiers and all replies to the requests, for all parsers and codecs", "why_tests_cant": "the replies are written by attackers", "anchors": ["openid/consumer/discover.py:discoverURI", "openid/consumer/discover.py:discoverYadis", "openid/consumer/discover.py:OpenIDServiceEndpoint"]}
{"id": "C56", "title": "What discovery on a URL asks for", "statement": "discover on a URL makes at most three requests: the URL (normalised, http or https, no fragment) with the Accept header for XRDS; the address of the XRDS document, if the page says it is elsewhere; and the URL again without the header. Another scheme is refused without a request. The document is at the page itself iff its media type is that of XRDS, whatever the parameters; else where the X-XRDS-Location header says; else where the first such meta element in the head says.", "quantifier": "all identifiers and replies", "why_tests_cant": "arbitrary replies", "anchors": ["openid/yadis/discover.py:discover", "openid/yadis/discover.py:whereIsYadis", "openid/yadis/parsehtml.py:findHTMLMeta"]}
{"id": "C57", "title": "The endpoints of an XRDS document", "statement": "fromXRDS returns, for the services of the last XRD in an order by priority and the URIs of each in an order by priority, one endpoint for each URI with a text of each service with a known type, and nothing else. It fails only if the document is not an XRDS document with an XRD, if a service has a type without a text, or if a service has two different local identifiers.", "quantifier": "all documents and shuffles", "why_tests_cant": "the document is arbitrary and the order is random", "anchors": ["openid/consumer/discover.py:OpenIDServiceEndpoint.fromXRDS", "openid/yadis/services.py:applyFilter", "openid/yadis/filters.py:TransformFilterMaker"]}
{"id": "C58", "title": "The endpoints of an HTML page", "statement": "fromHTML returns at most two endpoints, first of OpenID 2 and then of OpenID 1: each is there iff the first link in the head with the word openid2.provider (openid.server) in its rel has a non-empty address, which is the endpoint's, and its local identifier is the address of the first link with the word openid2.local_id (openid.delegate).", "quantifier": "all pages", "why_tests_cant": "arbitrary pages, arbitrary whitespace and words in rel", "anchors": ["openid/consumer/discover.py:OpenIDServiceEndpoint.fromHTML"]}
{"id": "C59", "title": "A service has one local identifier", "statement": "The local identifier of a service is the text of its openid:Delegate elements (if it has an OpenID 1 type) and LocalID elements (if it has the OpenID 2 type), when all from the first with a text on agree; none if none has a text; otherwise DiscoveryFailure is raised.", "quantifier": "all services", "why_tests_cant": "any number of elements in any order", "anchors": ["openid/consumer/discover.py:findOPLocalIdentifier"]}
{"id": "C60", "title": "What discovery raises", "statement": "discover raises only DiscoveryFailure, what a fetch raised, what decoding a page raised, AttributeError for an empty type element or a malformed XRI document, and ValueError or IndexError for URLs or XRIs that cannot be taken apart; never an XRDS error.", "quantifier": "all identifiers and replies", "why_tests_cant": "arbitrary replies", "anchors": ["openid/consumer/discover.py:discover"]}
{"id": "C61", "title": "Endpoints found for an XRI are for its verified CanonicalID", "statement": "discover on an XRI asks the proxy resolver once for each of the four types, in order, until something fails. Every endpoint it returns has the CanonicalID verified in the last document the resolver gave as its claimed identifier and the bare name as display identifier, and its address, types and local identifier come from a service in the last XRD of a document the resolver gave.", "quantifier": "all XRIs and replies", "why_tests_cant": "arbitrary replies", "anchors": ["openid/consumer/discover.py:discoverXRI", "openid/yadis/xrires.py:ProxyResolver.query"]}
{"id": "C62", "title": "A message arrives as it was sent", "statement": "A message built with the Message methods from arguments that do not look like one another, sent as a form or appended to a URL, is parsed by the receiver into a message of the same version with the same arguments in every namespace, whatever aliases were chosen, whatever order the parameters have and whatever other parameters the URL has. Adding an extension under a free alias keeps this and changes no other argument. Exception: an extension that the receiver has not registered is lost in OpenID 1, where extensions are never declared (only simple registration is registered).", "quantifier": "all messages built by Message methods, all orders of parameters, all base URLs without a fragment", "why_tests_cant": "arbitrary arguments, aliases and orders", "anchors": ["openid/message.py:Message.toPostArgs", "openid/message.py:Message.fromPostArgs", "openid/message.py:Message.toURL", "openid/message.py:Message.toURLEncoded", "openid/extension.py:Extension.toMessage"]}
{"id": "C63", "title": "An authentication request says exactly what was asked", "statement": "For every endpoint, realm and return URL, the message of a request made by begin carries the realm, the mode, the return URL with the consumer's nonce (and, for OpenID 1, the claimed identifier) appended, the identity and claimed identifier of the endpoint (or identifier_select for both if the provider is to choose, or neither if the request is anonymous), the handle of the association in use if there is one, and nothing else; the URL to redirect to is the server's with these arguments after its own. Anonymous requests are refused for OpenID 1, and so is every request without a return URL.", "quantifier": "every endpoint, session, association, realm, return URL and mode", "why_tests_cant": "A test fixes one endpoint and compares one URL; that no field is missing, doubled or added must hold for every combination of service types, identifiers and modes.", "anchors": ["openid/consumer/consumer.py:AuthRequest.getMessage", "openid/consumer/consumer.py:AuthRequest.redirectURL", "openid/consumer/consumer.py:GenericConsumer.begin", "openid/consumer/consumer.py:Consumer.beginWithoutDiscovery"]}
{"id": "C64", "title": "A message sent as a form arrives as it is, and nothing else does", "statement": "Whatever characters are in the names and values of a message, in the URL and in the attributes a caller adds, the markup of toFormMarkup has one form: it is posted to the URL, form-encoded as UTF-8, with exactly the arguments of the message as hidden fields, and the only other thing in it is a button with the given text; no other tag can come out of a value. The page around it sends the form as soon as it is loaded and adds no form or field. Text with characters that no page can have is refused with ValueError, and so are attribute names that are none. The form of an authentication request posts the message of the request to the provider, so the provider gets the same arguments as by redirect. Exceptions: accept-charset and enctype cannot be overridden, although the documentation says so; the title of the page is not escaped.", "quantifier": "every message, URL, set of attributes, button text and authentication request", "why_tests_cant": "Markup injection is a matter of every possible character sequence in every field.", "anchors": ["openid/message.py:Message.toFormMarkup", "openid/oidutil.py:autoSubmitHTML", "openid/consumer/consumer.py:AuthRequest.formMarkup", "openid/consumer/consumer.py:AuthRequest.htmlMarkup", "openid/server/server.py:OpenIDResponse.toFormMarkup"]}
{"id": "C65", "title": "What a consumer accepts, the provider said", "statement": "Take any history of calls on a provider and any completion of a consumer that succeeds, where whoever says is_valid:true at the provider's URL is the provider. Then the provider issued a signed response with the same list of signed fields and the same value for each of them (missing and empty being the same), among them every field that must be signed; or else the signature in the query is one for a text that the provider never signed, under the secret of an association that the consumer's store returned or that the provider made for itself (a forgery of the MAC). If every response that the provider signs is the positive answer that its application decided on, with any extensions added, then the consumer is told what was decided: the version, the return URL, the user, and in OpenID 2 the claimed identifier, the nonce and the provider. A response that says of which version it is (as every such answer does) is good for one success only, wherever and however often it is brought, and even as a response of the other version. In OpenID 2 what the consumer takes as signed data of an extension is exactly what the provider put into the response for that extension, empty values aside. (In OpenID 1 it is not: a well-known extension need not be declared, and a declaration added on the way, which is not signed, moves its data to another extension.)", "quantifier": "every history of calls on the provider, every store that keeps associations faithfully, every completion, every query an attacker can make up, every set of completions against one nonce store", "why_tests_cant": "The attacker chooses the whole query and may use every response the provider ever gave; tests can try only some combinations.", "anchors": ["openid/consumer/consumer.py:GenericConsumer.complete", "openid/server/server.py:Signatory.sign", "openid/server/server.py:Signatory.verify", "openid/server/server.py:CheckAuthRequest.answer", "openid/server/server.py:CheckIDRequest.answer", "openid/association.py:Association.signMessage", "openid/consumer/consumer.py:SuccessResponse.getSigned", "openid/consumer/consumer.py:SuccessResponse.getSignedNS", "openid/extension.py:Extension.toMessage"]}
{"id": "C66", "title": "A provider's endpoint replies to every request", "statement": "An endpoint that decodes a query, handles the request and encodes the response answers every query, whatever the history of its store. No arguments: the page about the endpoint. A browser's request: the application is asked. A request to check a signature: status 200, is_valid says whether the provider made that signature with a private association it still has, and a handle asked about comes back exactly if the provider no longer has that association. A request for an association of a kind that is made: the association is stored and the reply tells of it, its secret and its lifetime; of another kind: the reply says so, with the kind to use. A request that breaks the protocol: the error goes to return_to, or with status 400 into the body, or to the application if a browser brought it. The only exceptions that leave the endpoint are listed with their exact conditions: extensions that cannot go together (see C68), no endpoint configured, broken URLs, a line end in a handle or in the text of an error, an error too long for a redirect that no form can hold, a public key that the library refuses (the association stays stored), and an OpenID 1 request for an association kind that is not made.", "quantifier": "all argument dictionaries, all states of a faithful store, all configurations of the negotiator without line ends", "why_tests_cant": "The endpoint is open to everyone: the query is arbitrary remote input, and what must be shown is that no query leads to an unforeseen exception.", "anchors": ["openid/server/server.py:Server.decodeRequest", "openid/server/server.py:Server.handleRequest", "openid/server/server.py:Server.encodeResponse", "openid/server/server.py:CheckAuthRequest.answer", "openid/server/server.py:AssociateRequest.answer", "openid/server/server.py:AssociateRequest.answerUnsupported", "openid/server/server.py:ProtocolError", "examples/server.py:ServerHandler.serverEndPoint"]}
{"id": "C67", "title": "A consumer completes with a response; the exceptions that leave it", "statement": "Completing with any arguments returns a response (success, failure, cancel, setup needed); never does a ProtocolError, a type mismatch or a DiscoveryFailure leave it. The exceptions that can leave are listed with their conditions: an unknown version or extensions that cannot go together; and, for a positive assertion only, the word sreg as a namespace, the version signon/1.1, a return URL or claimed identifier that is no URL, an OpenID 1 assertion without a pending request, a failure of the store, of discovery or of the fetcher that is not one of theirs, a reply that is no message, and a signature that cannot be compared (empty, or over a text with a line end, or by an association of an unknown type). Whenever an exception leaves, the session is as it was before. Beginning raises DiscoveryFailure if nothing is found, ProtocolError for an anonymous request in OpenID 1, and otherwise only for a negotiator that allows nothing usable, a cryptographic library that refuses the defaults, or what came from outside.", "quantifier": "all argument dictionaries, sessions, configurations, replies and failures of store, discovery and provider", "why_tests_cant": "The arguments and the replies are arbitrary remote input, and what must be shown is that none of them leads to an unforeseen exception.", "anchors": ["openid/consumer/consumer.py:Consumer.complete", "openid/consumer/consumer.py:Consumer.begin", "openid/consumer/consumer.py:GenericConsumer.complete", "openid/consumer/consumer.py:GenericConsumer._doIdRes", "openid/consumer/consumer.py:GenericConsumer._checkAuth", "openid/consumer/consumer.py:GenericConsumer._negotiateAssociation"]}
{"id": "C68", "title": "A message can be read exactly when its extensions can go together", "statement": "Arguments of a known protocol version can be read as a message exactly when: no extension is declared under a reserved name or one with a dot, the protocol itself is not declared as an extension, no extension is declared twice, and, in OpenID 1, no extension that is there under a registered name without a declaration is also there under another name. Otherwise the exception is InvalidOpenIDNamespace for an unknown version, AssertionError for an impossible name, InvalidNamespace for an extension that is there twice. (The old word sreg for an extension's address is left aside in the exact condition.)", "quantifier": "all argument dictionaries and all tables of registered names", "why_tests_cant": "The condition is about all pairs of declarations and undeclared names in arbitrary remote input.", "anchors": ["openid/message.py:Message.fromPostArgs", "openid/message.py:Message.fromOpenIDArgs", "openid/message.py:Message._fromOpenIDArgs", "openid/message.py:NamespaceMap.addAlias"]}
{"id": "C69", "title": "An honest run carries the data of extensions both ways", "statement": "A request to which any extensions with different namespaces and aliases were attached is decoded by the provider so that asking for each namespace gives exactly the data that was attached, and any other namespace gives nothing. The provider can attach any extensions to its answer; once the answer has come back by whatever way, the consumer accepts it, and the signed data of each namespace is exactly what the provider attached; any other namespace has none. This holds with a shared association, and without one when the consumer asks the provider about the answer; and also when the provider chooses the user. In OpenID 1 it needs that the reader has registered the aliases.", "quantifier": "all endpoints, realms, return URLs, associations, clocks, stores that keep what they are given, and all lists of extensions with data that has no line ends", "why_tests_cant": "The data and the combination of extensions is arbitrary, and it has to survive escaping, aliasing, signing and parsing at the same time.", "anchors": ["openid/extension.py:Extension.toMessage", "openid/consumer/consumer.py:AuthRequest.addExtension", "openid/server/server.py:OpenIDResponse.addExtension", "openid/consumer/consumer.py:SuccessResponse.getSignedNS", "openid/server/server.py:Signatory.sign"]}
{"id": "C70", "title": "What service filters give", "statement": "A filter may be a function, an object or a list of these nested to any depth. It is refused with TypeError exactly if something in it, at any depth, is not fit to be a filter. Otherwise, applied to a document, it gives for the services of the last XRD, sorted by priority, what its stages give one after the other: for a list of functions, for each URI of the service by priority, what the first function gives that gives something. Without a filter each service gives one basic endpoint for each URI. Exceptions are XRDSError for something that is no document, AttributeError for a type without text, or what a function raised. The endpoints a consumer finds are those of the filter for OpenID services.", "quantifier": "all filters, nested to any depth, all documents and all ways to shuffle services of equal priority", "why_tests_cant": "Filters are given by the application and nest without bound; documents come from outside.", "anchors": ["openid/yadis/filters.py:mkFilter", "openid/yadis/filters.py:TransformFilterMaker", "openid/yadis/filters.py:CompoundFilter", "openid/yadis/services.py:applyFilter", "openid/yadis/services.py:getServiceEndpoints"]}
{"id": "C71", "title": "A provider verifies a return URL over the web exactly if the relying party publishes it", "statement": "When return URL verification answers, it says True exactly if the string is a realm, the page at the realm's discovery URL was got without a redirect to another address, and the XRDS document found there publishes, under the return URL type, a URL without a star that covers the return URL. At most two requests are made, the first of them to the realm's discovery URL; none if the string is no realm. The exceptions that can leave are listed with their conditions.", "quantifier": "all realms, return URLs, pages, redirects, documents and failures of the web", "why_tests_cant": "The page, the document and the redirects are under control of whoever owns the realm's address, and the answer protects users against open redirects.", "anchors": ["openid/server/trustroot.py:verifyReturnTo", "openid/server/trustroot.py:getAllowedReturnURLs", "openid/server/trustroot.py:returnToMatches", "openid/server/trustroot.py:_extractReturnURL", "openid/yadis/services.py:getServiceEndpoints"]}
{"id": "C72", "title": "Each XRI is looked up at an address of its own", "statement": "Whatever characters a name has, taking the escapes out of its URI normal form gives the name back with the scheme in front, so two names are looked up at the same address exactly if they are the same name (with or without xri://). An identifier is looked up with the XRI resolver exactly if it starts with xri:// or with one of the characters ! = @ + $ (, and at its own URL otherwise. In the URI normal form of a name percent signs are escaped, and within a cross-reference (from a left to the next right parenthesis on the same line) slashes, question marks and number signs too, and no other character up to there is changed.", "quantifier": "all identifiers", "why_tests_cant": "The claim is injectivity over all strings, with nested escapes and characters beyond ASCII.", "anchors": ["openid/yadis/xri.py:toURINormal", "openid/yadis/xri.py:toIRINormal", "openid/yadis/xri.py:escapeForIRI", "openid/yadis/xri.py:iriToURI", "openid/yadis/xri.py:identifierScheme", "openid/yadis/xrires.py:ProxyResolver.queryURL"]}
{"id": "C73", "title": "Who logs in is vouched for by their own page", "statement": "After any sequence of begin, beginWithoutDiscovery and complete in one user's session, if complete reports success, then the response asserts no identifier at all, or the identifier asserted, without its fragment, is the address of a page that was fetched in this session and that names the provider whose assertion was accepted: by the first links in its head, by being an XRDS document whose last description lists the service, or by pointing to such a document. For an XRI the resolver gave the identifier with a chain of authority, and the provider. The identity asserted at the provider is the one named there. The only exception is an endpoint the application itself passed to beginWithoutDiscovery.", "quantifier": "all sequences of calls in a session, all queries arriving at complete, all replies of the network and the store, all orders in which services of one priority are tried", "why_tests_cant": "It joins discovery, the session and verification over unbounded histories; a test shows one path through one page.", "anchors": ["openid/consumer/consumer.py:Consumer.begin", "openid/consumer/consumer.py:Consumer.beginWithoutDiscovery", "openid/consumer/consumer.py:Consumer.complete", "openid/consumer/consumer.py:GenericConsumer._verifyDiscoveryResults", "openid/consumer/discover.py:discover", "openid/yadis/manager.py:Discovery"]}
{"id": "C74", "title": "A login works from what the user types to the end, whatever associations each side holds", "statement": "Let discovery on what the user types find a provider that can be asked about the user, and let the provider say yes. Whatever associations the relying party and the provider hold, as long as two with the same handle are the same association, Consumer.begin makes a request: it chooses an unexpired association it has with that provider, or makes one with it over the web, or goes without if it has no store. The provider's endpoint reads the request and asks; its signed answer, whether with that association or with a private one because the other is gone, comes back through the browser, and complete accepts it, asking the provider about it over the web if it was signed with a private association. No step touches anything else in either store: only expired associations may go, the one chosen if the provider no longer has it, and the private one when the relying party has asked about it; only the association made for the login and the private one are added; and no nonce but the login's own is used up. After each step associations with the same handle are still the same, and after a response that names a user the session holds nothing of the login, so the next login works too. After an anonymous success it still holds the services not tried: the next begin with the same identifier asks the next of them. Assumed is that between the steps the stores lose nothing the answer needs, that the nonce was not used and is recent, and that the provider's new private handle is not one the relying party already has. The memory store and, over SQLite or PostgreSQL, the SQL store qualify; with the SQL store no two associations with that provider may be of the same second, and a login never makes it so, but two logins that begin at once can: then, until one of the two associations expires, begin raises TypeError for that provider.", "quantifier": "all contents of both stores, all kinds of association and session, all return URLs under the realm, all random values and times, OpenID 1 and 2, with and without a store, immediate or not, anonymous or not", "why_tests_cant": "It composes discovery, negotiation, signing, the browser and verification over every state of two stores; a test runs one scenario with chosen contents.", "anchors": ["openid/consumer/consumer.py:Consumer.begin", "openid/consumer/consumer.py:GenericConsumer._getAssociation", "openid/consumer/consumer.py:Consumer.complete", "openid/server/server.py:Server.decodeRequest", "openid/server/server.py:Signatory.sign", "openid/server/server.py:CheckAuthRequest.answer", "openid/store/memstore.py:MemoryStore", "openid/store/sqlstore.py:SQLStore"]}
{"id": "C75", "title": "A refusal arrives as what it is", "statement": "If the user says no, or would have to be asked when that is not allowed (an immediate request of OpenID 2), or the provider finds fault with the request, then the provider can answer any request that the consumer has made, without asking anything of its store; and whatever way the browser brings that answer back, the consumer asks nothing of anyone, forgets the request, and tells the application just that: that it was cancelled, for the endpoint asked about; that the user needs to be asked, and at which URL; or that it failed, with the provider's text, contact and reference. At the URL for asking the user the provider finds the same request, now one for which the user may be asked (but without the data of extensions, which the code leaves out). The URL that a provider's application gets for cancelling does the same as the answer; there is none for immediate requests or requests without a return URL.", "quantifier": "all endpoints that can be asked, of OpenID 1 and 2, known or to be chosen users, anonymous or not; all honest beginnings of a request with any data of extensions; all return URLs under the realm, all clocks, all stores of the provider, redirects and forms", "why_tests_cant": "The URLs, nonces, identifiers, extensions and stores are unbounded, and two programs with different encodings take part.", "anchors": ["openid/server/server.py: CheckIDRequest.answer, CheckIDRequest.getCancelURL, CheckIDRequest.encodeToURL, ProtocolError", "openid/consumer/consumer.py: Consumer.complete, GenericConsumer._complete_cancel, _complete_setup_needed, _complete_error"]}
{"id": "C76", "title": "A login carries what the relying party asks for and what the provider answers", "statement": "In the login of C74 let the application attach the data of any extensions to the request, and the provider's application attach data of any extensions to its answer. Then the provider reads, for each extension, exactly the arguments that were attached and no other extension; and the relying party, in the success it is told of, finds exactly the arguments the provider attached, all of them among the signed ones, and nothing of any other extension. So a simple registration request is read back as it was made, and its answer has exactly the fields that were asked for and are known; an attribute exchange request is read back with each attribute, its number of values and whether it is required, and its answer gives each attribute asked for its values, none if it has none; a PAPE request is read back with its policies, age and levels, and its answer with its policies, time and levels.", "quantifier": "all data of extensions that can be attached (different namespaces and aliases, none of them OpenID's own, no dot in an alias; for OpenID 1 the reader must know the aliases; names without commas and colons and single-line values in what is to be signed), all contents of both stores, all return URLs under the realm, all random values and times, OpenID 1 and 2, signed with a shared or a private association", "why_tests_cant": "Extension data, aliases, stores and URLs are unbounded and pass through two programs with different namespace tables, encodings and signing; a test fixes one set of arguments.", "anchors": ["openid/extension.py: Extension.toMessage", "openid/consumer/consumer.py: AuthRequest.addExtension, SuccessResponse.getSignedNS", "openid/server/server.py: OpenIDResponse.addExtension, Signatory.sign", "openid/extensions/sreg.py", "openid/extensions/ax.py", "openid/extensions/draft/pape5.py"]}
{"id": "C77", "title": "A login works when the provider chooses the user", "statement": "Let the user type something of which discovery finds that a provider chooses who its users are. As in C74 and C76, whatever associations the two sides hold and whatever extension data is attached, Consumer.begin makes a request that the provider's endpoint reads, with no user in it; the provider may answer with any identifier and any name of its own for the user (without the identifier if the two are the same); and complete accepts the answer if discovery on the identifier finds an endpoint with this provider that agrees with the answer, whatever else it finds. The identifier the relying party is given is exactly the one in the answer, with its fragment, and the endpoint is one that discovery found for it and that agrees with the answer.", "quantifier": "all contents of both stores, all identifiers and names, all results of discovery that contain an agreeing endpoint, all extension data, all return URLs under the realm, all random values and times, with and without a store, immediate or not", "why_tests_cant": "It composes discovery (twice), negotiation, signing, the browser and verification over every state of two stores and every list of discovered endpoints.", "anchors": ["openid/consumer/consumer.py:Consumer.begin", "openid/consumer/consumer.py:GenericConsumer._verifyDiscoveryResultsOpenID2", "openid/consumer/consumer.py:GenericConsumer._discoverAndVerify", "openid/server/server.py:CheckIDRequest.answer", "openid/consumer/consumer.py:Consumer.complete"]}
{"id": "C78", "title": "Any number of logins at once", "statement": "Any number of users log in to one relying party with one provider, OpenID 1 and OpenID 2 users alike, with or without a store at the relying party, with any extensions attached. Some users say yes, some say no, and some only named the provider, which then chooses an identifier. Their logins begin, are answered and come back in any order, and among whatever else the two do that leaves alone what these logins need; associations made for one login are used for others. No step of any login ever fails; every login that is over has ended as its own user said: with success, for that user and with what the provider said about them; with success for whom the provider chose, its fragment included; or, for a no, with 'cancelled', or 'setup needed' if the request was immediate. And however far the others are, each login can be finished, which leaves the others where they are. This takes stores that work, clocks that agree within the nonce window, every step before the associations expire, and no handle or nonce drawn twice.", "quantifier": "every number of logins (also infinitely many), every interleaving of their steps with each other and with any other activity of the two sides that does not drop what is shared or use up one of their nonces, every conforming pair of stores and every pair of contents in which what the relying party holds for the provider the provider has too", "why_tests_cant": "the number of logins and of their interleavings is unbounded, and whether one login's association, nonce or fallback to checking with the provider disturbs another's depends on the order of all of them", "anchors": ["openid/consumer/consumer.py: Consumer.begin, Consumer.complete, GenericConsumer._getAssociation, GenericConsumer._checkAuth", "openid/server/server.py: Server.decodeRequest, Server.encodeResponse, Signatory", "openid/store/interface.py: OpenIDStore", "openid/store/memstore.py: MemoryStore"]}
{"id": "C79", "title": "What to show of an identifier, and what an endpoint supports", "statement": "getDisplayIdentifier of every response gives: nothing when the response does not know for whom it is; the i-name that was typed, not the CanonicalID in identity_url, when the endpoint was found by XRI resolution; and else the claimed identifier with its fragment removed and nothing else changed. An endpoint supports exactly the types it is declared with, and one where the provider chooses the user supports OpenID 2 logins for a given user too; it is in compatibility mode exactly when it declares neither OpenID 2 type. Exceptions: a question mark or semicolon with nothing after it is not shown when there is a fragment, and a URL with half a bracket and a fragment raises ValueError.", "quantifier": "all responses, endpoints, http and https URLs with any path, query and fragment, all XRIs and everything the resolver answers, all type URIs", "why_tests_cant": "fragments are removed by parsing and reassembling the URL, which must give back every other part of every URL", "anchors": ["openid/consumer/consumer.py:Response.getDisplayIdentifier", "openid/consumer/discover.py:OpenIDServiceEndpoint.getDisplayIdentifier", "openid/consumer/discover.py:OpenIDServiceEndpoint.supportsType", "openid/consumer/discover.py:OpenIDServiceEndpoint.compatibilityMode"]}
{"id": "C80", "title": "The SQL statements do what the stores need", "statement": "For each of the three SQL stores, createTables works in a database without tables of the two names, and then every sequence of calls of the store, run by the database from the texts of the statements with the table names put in, has exactly the outcomes of the operations on a table of associations and a table of nonces with their keys, leaves exactly their rows, and touches no other table; so what is known of the stores (a nonce is taken once, no expired association is returned) holds of the statements as they are written. All that is ever handed to the database are those texts, whatever the arguments; arguments go beside them and never as text. Exceptions: the default table names cannot be used; PostgreSQL refuses secrets of more than 128 bytes, and with a driver that sends byte strings as binary values it refuses every operation with a text argument, storing nothing.", "quantifier": "all table names the database takes and tells apart, all other tables, all sequences of calls with any texts (quotes and SQL among them), times and failures of the database, drivers that give back texts or bytes, old and new SQLite wrappers", "why_tests_cant": "the project's tests of the stores need live servers, use one table name and a few handles; that no argument, name and history makes a statement mean something else is about all of them", "anchors": ["openid/store/sqlstore.py:SQLStore", "openid/store/sqlstore.py:SQLStore._getSQL", "openid/store/sqlstore.py:SQLStore._execSQL", "openid/store/sqlstore.py:SQLiteStore", "openid/store/sqlstore.py:MySQLStore", "openid/store/sqlstore.py:PostgreSQLStore"]}
{"id": "C81", "title": "SQL stores keep their promises when clients work at the same time", "statement": "Any number of clients call operations of an SQL store on the same database, each on a connection of its own, and their single statements interleave in any way; statements, commits and rollbacks may fail, a commit may be made without the client hearing of it, and clients may die anywhere. useNonce still returns True at most once per (server_url, timestamp, salt), as long as the clock does not move out of the five hours around the timestamp while a useNonce call with that timestamp is going on. There are never two committed associations of the same server and handle. getAssociation returns only associations that were stored for that server, with the handle asked for, and not expired when the call was made. An association whose storeAssociation returned stays committed until it expires, if nobody calls an operation on its server and handle other than storing the same association again. With PostgreSQL, two clients storing an association of the same server and handle at once can make one of them raise IntegrityError, and storeAssociation can return without anything stored when an expired association of that handle is cleaned up between its SELECT and its UPDATE.", "quantifier": "all executions: all interleavings of statements of any number of clients, all operations and arguments, all failures, all clocks that do not go back, all three stores", "why_tests_cant": "A test runs a few interleavings at best, and usually one client at a time; the statement is about every interleaving of statements, failures included, of any number of clients.", "anchors": ["openid/store/sqlstore.py:SQLStore._callInTransaction", "openid/store/sqlstore.py:SQLStore.txn_useNonce", "openid/store/sqlstore.py:SQLStore.txn_getAssociation", "openid/store/sqlstore.py:SQLStore.txn_storeAssociation", "openid/store/sqlstore.py:PostgreSQLStore.db_set_assoc", "openid/store/sqlstore.py:SQLiteStore.useNonce"]}
{"id": "C82", "title": "Registered names of extensions stay one-to-one and decide what is read", "statement": "After any sequence of registerNamespaceAlias calls, refused ones included, aliases and URIs correspond one to one, an alias never comes to stand for another URI, and an alias stands for a URI exactly when a call with both took effect, which a call does unless an earlier call that did has its alias or its URI. A call raises exactly when the alias stands for another URI or the URI has another alias, and then changes nothing. In every message that can be read, the arguments of an extension are exactly those under the name that stands for it: the name it is declared with in the message or, in OpenID 1 only, the name it is registered with if that is not declared there; getAliasedArg finds them by that name too. Arguments under a name that stands for nothing are arguments of the protocol itself, under the whole of their name; an extension for which no name stands has none. (No URI is the literal word 'sreg'.)", "quantifier": "all sequences of registrations, all dictionaries of arguments that can be read, all names, URIs and keys", "why_tests_cant": "the registry is global state that every message is read with; what a name means depends on the whole history of registrations and on everything else in the message", "anchors": ["openid/message.py:registerNamespaceAlias", "openid/message.py:Message.fromPostArgs", "openid/message.py:Message._fromOpenIDArgs", "openid/message.py:Message.getAliasedArg"]}
{"id": "C83", "title": "The memory store shared by several threads", "statement": "Any number of threads call operations of one MemoryStore, and their single accesses to its dictionaries interleave in any way. Two useNonce calls that both return True for one (server_url, timestamp, salt) were going on at the same time, as long as the clock does not move into or out of the five hours around the timestamp while a useNonce call with that timestamp or a cleanupNonces call is going on; so with one call per nonce at a time it is taken at most once. (Two calls at the same time can both get True, and without the assumption on delays so can two calls one after the other: there are executions that show it.) getAssociation returns only associations that were stored for that server, with the handle asked for. storeAssociation, removeAssociation, useNonce and getAssociation with a handle never raise; getAssociation without a handle raises nothing but RuntimeError, the cleanups nothing but RuntimeError and KeyError, and all that can happen. If a call about a server has returned and nothing is going on, then an association stored for that server later is found by every getAssociation with its handle that begins after the store returned, provided nobody calls cleanupAssociations and no other operation is called on that server and handle; for a server nobody has asked about, or with cleanupAssociations at the same time, a stored association can be lost. An operation that nobody disturbs does what the store does with one thread.", "quantifier": "all executions: all interleavings of dictionary accesses of any number of threads, all operations and arguments, all clocks that do not go back, all behaviours of iterators over dictionaries that change", "why_tests_cant": "a test runs the operations one after another; races show only in particular interleavings of single accesses, of which there is no end", "anchors": ["openid/store/memstore.py:MemoryStore.useNonce", "openid/store/memstore.py:MemoryStore._getServerAssocs", "openid/store/memstore.py:MemoryStore.storeAssociation", "openid/store/memstore.py:MemoryStore.cleanupNonces", "openid/store/memstore.py:MemoryStore.cleanupAssociations", "openid/store/memstore.py:ServerAssocs"]}
{"id": "C84", "title": "How association types are negotiated", "statement": "When Consumer.begin (beginWithoutDiscovery) returns a request, its association came about as follows, whatever the provider replied. Without a store there is none and nothing is sent. Otherwise the store is asked for an association with the provider; what it has is used if it has time left. If not, an association of the negotiator's first pair of types is asked for. If the reply is an error (HTTP status 400) in OpenID 2 with error_code 'unsupported-type' that names an association type and a session type, and the negotiator permits that pair, then exactly that pair is asked for next, and there is never a third request; with any other reply there is no second one. The association of the request is the one the last reply grants, and it was stored first; there is none only if that reply does not grant one. And yet two parties that both use this library do not negotiate: a provider that refuses a pair says what it supports with HTTP status 200, so that the consumer makes no second request, stores nothing and goes on without an association.", "quantifier": "all configurations of the consumer, all replies of the provider and answers of the store, all providers and negotiators", "why_tests_cant": "the outcome depends on a conversation in which every reply can be anything; tests of each party alone simulate the other one and miss that the two do not fit together", "anchors": ["openid/consumer/consumer.py:GenericConsumer._negotiateAssociation", "openid/consumer/consumer.py:GenericConsumer._extractSupportedAssociationType", "openid/consumer/consumer.py:GenericConsumer._getAssociation", "openid/consumer/consumer.py:GenericConsumer._requestAssociation", "openid/consumer/consumer.py:GenericConsumer._extractAssociation", "openid/consumer/consumer.py:ServerError", "openid/server/server.py:AssociateRequest.answerUnsupported", "openid/server/server.py:Encoder.encode"]}
{"id": "C85", "title": "When an XRD expires, and what a list of services is expanded to", "statement": "getXRDExpiration answers the given default exactly when the XRD has no Expires child; otherwise its answer is the time that the first Expires child has as its text: every second from 1970 to 9999 in the form YYYY-MM-DDThh:mm:ssZ is read as itself, and nothing is read as a time that is not a date that exists with a time of day, each field in digits (so no leap seconds). Everything else raises ValueError, except that an Expires element without text raises TypeError, against the documentation. expandServices gives, service by service in the order of the list, the types of the service with each of its URIs by priority; a service without a URI is there once, with None, also against the documentation; it fails (AttributeError) only because of a Type element without text.", "quantifier": "all XRD elements, defaults and lists of service elements, all outcomes of the shuffles", "why_tests_cant": "there are unboundedly many texts that are nearly times, and documents; neither function is called by the library, and their documentation promises more than they keep", "anchors": ["openid/yadis/etxrd.py:getXRDExpiration", "openid/yadis/etxrd.py:expandServices"]}
{"id": "C86", "title": "The example provider answers yes only to what its visitors said yes to", "statement": "Whatever visits were made to the provider of examples/server.py since it was started: at its endpoint a request about a user is answered with a positive assertion without asking only if the visitor is logged in as the very user the request is about, and somebody had said yes, to be remembered, to an earlier request about the same identity and trust root; every other immediate request is answered no, and is never put on a page to decide on. By the form, a visitor answers the request that visitor brought last and that was not answered at once: with a positive assertion only if the visitor says yes, about the identity the request names, or, if the request leaves the choice, the one the visitor entered. Of the user nothing is released but the name, and that only if the request asks for a nickname. But the provider does not ask who says yes: somebody logged in as somebody else can say it, and have it remembered, for any user; visitors who are not logged in answer each other's requests; and a request that ended in an error page because it is about nobody here is answered by the next yes.", "quantifier": "all sequences of visits by any visitors with any queries, all addresses of the provider, all requests", "why_tests_cant": "what is answered depends on everything visitors did before; the example has no tests at all", "anchors": ["examples/server.py:ServerHandler.handleAllow", "examples/server.py:ServerHandler.isAuthorized", "examples/server.py:ServerHandler.serverEndPoint", "examples/server.py:ServerHandler.handleCheckIDRequest", "examples/server.py:ServerHandler.addSRegResponse", "examples/server.py:ServerHandler.approved"]}
{"id": "C87", "title": "What the file store raises", "statement": "Whatever is in the store's directories and whatever calls of the system fail, an operation of the file store raises nothing but: OSError; ValueError for a server URL without '://' (for nonces: a non-empty one); KVFormError for an association whose handle or type has a line break or white space at an end; TypeError for a lookup or removal without a handle; ValueError from cleanupNonces when the name of a file in the nonce directory does not begin with a time.  With any number of processes on one store, failures and crashes, OSError occurs only if calls of the system fail on their own (or on Windows), never because of other processes, and cleanupNonces raises ValueError only if somebody tried to use a nonce from before 1970 (and one that was used then makes every later cleanup raise).", "quantifier": "all contents of the directories, all interleavings, all failures of system calls", "why_tests_cant": "a file may vanish or be replaced between any two system calls of an operation", "anchors": ["openid/store/filestore.py:FileOpenIDStore", "openid/store/filestore.py:_removeIfPresent"]}
{"id": "C88", "title": "A file store can be opened by many processes at once", "statement": "Any number of processes may open file stores in the same place or in different places at the same time, while others make directories: FileOpenIDStore(directory) raises nothing, unless a file is in the place of one of the directories or above, or a call of the system fails; and once it has returned, the three directories of the store are there, from then on.", "quantifier": "all interleavings of any number of processes, all directories there before", "why_tests_cant": "each of the calls of makedirs may come before or after those of others", "anchors": ["openid/store/filestore.py:_ensureDir", "openid/store/filestore.py:FileOpenIDStore._setup"]}
{"id": "C89", "title": "What a completion changes outside, whatever comes of it", "statement": "Whatever response is brought, and whether complete succeeds, fails or raises: the calls it makes are discovery of the claimed identifier, a search of the store for the association named in the response, a question to the provider, the removal of an association, and the use of a nonce, in this order and each at most once, and all but discovery are about the server of an endpoint that the session or discovery confirmed for this assertion. A nonce is brought to the store only after everything else was verified; with a store, the completion succeeds exactly if the store takes the nonce. So a response that is not genuine uses up no nonce. An association is removed only if the store has none of the name in the response and the provider, asked about this very response, replied that this one is invalid; a response by itself removes nothing. A response in another mode makes no calls.", "quantifier": "all responses, sessions, configurations, answers of the store, of discovery and of providers", "why_tests_cant": "an attacker may bring any number of forged responses, and a test looks at what is reported rather than at what was changed on the way", "anchors": ["openid/consumer/consumer.py:GenericConsumer._doIdRes", "openid/consumer/consumer.py:GenericConsumer._processCheckAuthResponse", "openid/consumer/consumer.py:GenericConsumer._idResCheckNonce"]}
{"id": "C90", "title": "The example relying party: no visitor is told of an identifier that was not verified for them", "statement": "In the relying party of examples/consumer.py, whatever visits come in whatever order, with whatever cookies and queries: every visit ends in a page, changes no session but that of its cookie, and what it shows depends on no other session. A page says that an identifier was verified only if the response in this very visit passed every check of complete against the visitor's own session, and it names the identifier that was asserted. A request is pending in a session only if the holder of its cookie has begun one. With a store that takes no nonce twice, no response is reported as verified to two visits, whoever brings it. Conversely, a visitor whose response is accepted is told so, if it is about an identifier and the data of the extensions can be read; a visit that names no identifier makes no calls and leaves the session as it is. The message of a page contains no markup from outside, except in the text of a failure, which is put there as it is (a link with openid.error puts a script into the page of a visitor with a pending request). A session id that was never given out is accepted, the page with the form sets no cookie, and a genuine response about no identifier is accepted, its nonce spent, and ends in an error page.", "quantifier": "all sequences of visits, cookies, queries, answers of stores, discovery and providers", "why_tests_cant": "the visits of several people are interleaved, and the text of a page comes from many places", "anchors": ["examples/consumer.py:OpenIDRequestHandler.getSession", "examples/consumer.py:OpenIDRequestHandler.doVerify", "examples/consumer.py:OpenIDRequestHandler.doProcess"]}
{"id": "C91", "title": "What beginning a login does outside, whatever comes of it", "statement": "Whatever identifier is given, whatever the session holds, and whether Consumer.begin returns a request or raises: the calls it makes are discovery of this identifier, a search of the store for an association, requests for one, and its storing, in this order. Discovery is made at most once, and only if the session has no services left for the identifier; there is at most one search and one storing, and at most two requests; all of these are about the server of the first service that the session still has or discovery found. An association is asked for only if the store has none with time left, and only what a reply granted is stored. No nonce is used and no association is removed, so that whoever makes a relying party begin logins spends nothing. Whatever happens the session is left with the request that was pending before or with the service just tried; a request that is returned is for that service, and the further services are there for the next attempt.", "quantifier": "all identifiers, sessions, configurations, answers of stores, of discovery and of providers", "why_tests_cant": "failures can come at each of the calls, and a test looks at the request rather than at what was done on the way", "anchors": ["openid/consumer/consumer.py:Consumer.begin", "openid/consumer/consumer.py:GenericConsumer._getAssociation", "openid/yadis/manager.py:Discovery.getNextService"]}
{"id": "C92", "title": "The documents of the example provider are found by the consumer's discovery", "statement": "Suppose a site shows the pages and documents of examples/server.py. Then discovery on the address of a user makes two requests, for the identity page and for the document that the page's meta element names, and ends with exactly one endpoint: the provider's openidserver address, claimed identifier and local identifier both the user's address, for OpenID 2.0 and 1.0. Discovery on the address of the site itself makes two requests likewise and ends with the same endpoint, at which an identifier can be chosen, without a claimed identifier. What is found for a user agrees with what the provider asserts about them: the consumer's check of an assertion against discovery accepts it in both versions of OpenID, and refuses an OpenID 2 assertion that names any other endpoint.", "quantifier": "for all base addresses and user names whose address is in normal form, all orders in which services and addresses of equal priority may be shuffled, all bodies that parse to these documents, and all runs of discovery in which the site answers so", "why_tests_cant": "The writer of the documents is in an example and the reader in the library; tests read documents kept in files, for a few names, and never put the two together.", "anchors": ["examples/server.py:ServerHandler.showIdPage", "examples/server.py:ServerHandler.showYadis", "examples/server.py:ServerHandler.showServerYadis", "examples/server.py:ServerHandler.showMainPage", "openid/yadis/discover.py:discover", "openid/consumer/discover.py:OpenIDServiceEndpoint.fromXRDS", "openid/consumer/consumer.py:GenericConsumer._verifyDiscoveredServices"]}
