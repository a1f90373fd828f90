# Formal model of JWTConnect-Python-OidcRP in Lean 4

## 1. Layout

    lean/Verif/Py/*.lean      Python-like values, ordered dicts, exceptions, the state+exception monad, text codecs
    lean/Verif/Model/*.lean   shallow model, function by function; every definition cites /repo file:lines
    lean/Verif/Spec/*.lean    small independent specifications used in theorem statements
    lean/Verif/Lemmas/*.lean  helper lemmas; World.lean: a concrete provider, client and handler for the examples
    lean/Verif/Props/*.lean   the property theorems (named Cxx_...), each with non-vacuity examples
    seeded/                   mutate.py applies wrong programs to a scratch copy; LOG.jsonl is the record

## 2. Modelling conventions

* A Python function that may raise is a function into `Except Exc α`, or, when it mutates an
  object, into `Py σ α := σ → Except Exc α × σ`: mutations made before a raise persist, as in Python.
* A Python dict is an insertion-ordered association list `Dict α` with first-match look-up.
* oidcmsg `Message` objects are `Dict Val`; `Message(**kw)`/`from_dict` drops values `""` and `[""]`
  (`Msg.ofDict`). oidcmsg itself is a dependency whose source is not in /repo.
* What is external is a parameter the theorems quantify over (structure `Ext`): hash, MAC, AEAD, JWT
  signing and encryption, `Message.verify`, deserialisation of a wire text, the answer of the HTTP
  server (a function of everything sent before), the random generator (values are arguments;
  freshness is an explicit hypothesis where needed), the clock.
* A JSON text in the state database is modelled by the document it denotes (`DbVal.doc`); a bare
  string stored in the same dictionary (index pointer) is `DbVal.raw`.
* A client's HTTP requests are recorded in `Client.log`; "sends", "asks" in the statements mean that
  log. Requests are sent one at a time: the code itself starts no threads, and each API call is one step of
  a history; properties about concurrency of sessions quantify over all interleavings of such calls. Threads of the
  application are modelled at the store (Model/Threads: single dictionary operations) and at the handler (Model/Rush: the steps of begin; Model/Desk: the steps of the calls for a session; Model/Office: the same with a handler that has many clients, look-ups of sessions included).
* Aliasing that the code really has (the `behaviour` dictionary shared by all clients of one
  configuration, the scope list) is modelled explicitly (`share`, `aliasScope`).

## 3. Trusted base

* Lean 4.33.0's kernel. No axioms of our own; every theorem depends on at most `propext`,
  `Classical.choice` and `Quot.sound` (what `vcheck` prints for each). No `native_decide`, no `bv_decide`; concrete runs are
  checked by the kernel (`rfl`, `decide`, `decide +kernel`).
* Faithfulness of my reading of /repo (the code was not run).
* Behaviour of oidcmsg 1.6 and cryptojwt as stated in section 2 and in the comments of the model.

## 4. What is modelled and what is not

| file under src/oidcrp | modelled | not modelled |
|---|---|---|
| state_interface.py | all; also as single dictionary operations, for schedules and crash points (Model/Threads) and on any mapping (Model/Backend) | - |
| rp_handler.py | all of RPHandler's API: client_setup, begin, finalize, get_tokens, refresh_access_token, get_user_info, has_active_authentication, get_valid_access_token, logout, close, clear_session, backchannel_logout, session look-ups | logging; key look-up in the key jar (what is put in it is modelled); FormPost page rendering, `pick_config` of callables |
| rp_handler.py (threads) | begin and client_setup as steps on client objects by reference (Model/Rush); init_authorization and the other calls as pieces on a shared client (Model/Desk); calls of the handler: finding the client, then the pieces (Model/Office) | interleaving inside a step |
| rp_handler.py:39-99, defaults.py | the constructor of the handler, the default services, preferences, configuration (shared by all handlers of a process) and places of keys (Model/Defaults) | client_cls, httplib, `self.jwks` |
| oauth2/__init__.py | do_request, get_response, service_request, parse_request_response, dynamic_provider_info_discovery | construction of HTTPLib from certificates |
| service.py | gather_request_args, pre/post construct, construct, get_authn_header, get_headers, get_request_parameters, get_urlinfo, gather_verify_arguments, parse_response, construct_uris hooks used | logging; loading classes by name (the set of services is data) |
| service_context.py | issuer, credentials, register_args, callbacks, filename_from_webname, generate_request_uris (Model/RequestUris), get/set, import_keys, the parameter table with dump and load (Model/Persist), signing and encryption algorithm choice | key generation; oidcmsg's `ImpExp` itself |
| client_auth.py | all methods | key look-up inside cryptojwt (a parameter) |
| cookie.py | signing, encryption, parsing, attributes and lifetimes, CookieDealer with init_srv | http.cookies quoting |
| util.py | random strings (with CPython's MT19937 and `random.choice` as an external model), add_path, replace, lower_or_upper, http url/body, content types, cookie/date helpers, load_registration_response, get_deserialization_method, create_context, get_http_params | reading YAML/JSON files, `importer` |
| http.py | HTTPLib with its cookie jar | the requests library |
| entity.py, service.py:init_services, oauth2/add_on/__init__.py | service look-up by endpoint name, constructors of the services with their lists of methods, add-ons put in place (Model/Entity) | class loading by name |
| configure.py | placeholder substitution and key spelling (with util.py), RPConfiguration | reading files, logging |
| oauth2/{authorization,access_token,refresh_access_token,provider_info_discovery,utils}.py, oauth2/client_credentials/* | all | - |
| oauth2/add_on/{pkce,dpop,pushed_authorization}.py | all | elliptic curve and JWS computation |
| oidc/{authorization,access_token,refresh_access_token,userinfo,end_session,check_id,check_session,registration,read_registration,webfinger,provider_info_discovery,utils}.py, oidc/__init__.py | all; aggregated and distributed claims | JWT decoding (a parameter) |
| provider/{github,linkedin}.py | class attributes, as configuration of the services they extend (Model/Provider) | message classes (parameters) |
| logging.py; logging of requests in oauth2/__init__.py, http.py, util.py, rp_handler.py | configure_logging; the records of a request as levels and values | formatting, dictConfig, log records elsewhere |
| service_factory.py, exception.py, defaults.py | constants used | the rest |
| rp_handler.py (single steps for a session) | do_provider_info, do_client_registration, init_authorization with state= (Model/Tier2) | request_args of registration |
| example/flask_rp/views.py | all views over browser sessions (Model/WebApp) | Flask, templates |
| example/ otherwise, unsupported/ | - | all |

The handler model uses the OpenID Connect services; the OAuth2 variants, client credentials and session
management services are modelled and proved about at the client level (`do_request`).

## 5. Plan per property

The theorems of each property are listed in MANIFEST.json; `_partial` theorems hold of the code, `_violated` theorems are
witnesses that the full claim is false of the code (proved about the model by running it, or for all cases).

| id | property | model and proof | status |
|---|---|---|---|
| C01 | Sessions are isolated from each other | StateInterface as functions on one flat dict; theorem by get/set lemmas for all keys | proved |
| C02 | Stored items are read back | same model; read-back for one step and, through C09, for histories | proved |
| C03 | Reverse look-ups return the session they were bound to last | same model; specification = last binding in the history; induction over the op list | proved |
| C04 | The four reverse indexes never interfere | injectivity of the key patterns as strings, then frame lemma | proved |
| C05 | Reserved session keys are refused | negation with witness key; partial: keys of the rejected shape, and freshness for well-formed keys | partial |
| C06 | Removing a session erases it and its index entries | negation with witness history (rebinding leaks); partial: values recorded last are erased | partial |
| C07 | Removing a session succeeds for every live session | negation with witness; partial: exact condition for success | partial |
| C08 | Removing a session leaves other sessions alone | negation with witness (shared subject); partial: disjoint index values | partial |
| C09 | The flat store behaves as sessions plus four indexes | refinement: abstraction relation to (records, indexes, refs), simulation by induction over operations | proved |
| C10 | Library-generated session keys never collide with index entries | character-level argument on generated keys | proved |
| C11 | A started session is resolved to its own provider | handler state machine with all high-level operations; invariant by induction over histories | partial |
| C12 | Starting a new session never loses sessions in flight | negation with witness history; partial for begins by registered issuer id | partial |
| C13 | An authorization response is only accepted for the provider the session was started with | finalize_auth model with abstract verification; inversion of the success path | proved |
| C14 | Unknown, missing or cleared state values are rejected without side effect | same, error path leaves state and request log unchanged | proved |
| C15 | Error authorization responses change nothing | same | partial |
| C16 | ID Token nonce in the authorization response must match the request | post_parse_response decision logic | proved |
| C17 | ID Token nonce in the token response must belong to this session | update_service_context decision logic over the store model | proved |
| C18 | An authorization response is single use | negation with witness; partial: what is rejected after clear_session | partial |
| C19 | Which tokens are returned is decided by the requested response type | decision table against an independent spec over sets of words | proved |
| C20 | The token request is bound to the session | get_tokens + oauth_pre_construct + construct; statement about the request in the log | proved |
| C21 | PKCE: the verifier sent matches the challenge of the same session | PKCE add-on over the store, abstract hash; interleavings through frame lemmas | proved |
| C22 | get_valid_access_token never returns an expired token | fold characterisation | proved |
| C23 | has_active_authentication is true iff the latest verified ID Token is unexpired | precedence characterisation | proved |
| C24 | Refreshing keeps a usable refresh token | negation with witness; partial: response that has a refresh_token | partial |
| C25 | User info is only accepted for the authenticated subject | negation with witness (aggregated sub); partial without aggregated sub | partial |
| C26 | get_user_info without an explicit token uses the session's token | negation for every store; partial: explicit token | partial |
| C27 | Back-channel logout finds the session | decision logic over the store model | proved |
| C28 | RP-initiated logout request belongs to the session | pre_construct chain of EndSession | proved |
| C29 | Clearing a session ends it | corollary of C06-C08, C11, C14 on the handler model | partial |
| C30 | client_secret_basic: the header decodes to the client's credentials and the secret leaves the request | the method on (request, headers) with a real base64 and percent codec; decode∘encode by induction on bytes | proved |
| C31 | Basic credentials are standard base64 | both alphabets on bytes; exact condition by arithmetic on 6-bit groups | partial |
| C32 | client_secret_post puts exactly id and secret into the request | branch-by-branch model of ClientSecretPost.construct | proved |
| C33 | JWT client authentication sends an assertion bound to this client and endpoint, and never the secret | JWSAuthnMethod model with abstract signer; the claims given to it are observable | proved |
| C34 | Bearer authentication sends the token once | BearerHeader/BearerBody over the store | proved |
| C35 | Token look-up precedence | find_token, modify_request against an independent FirstOf specification | proved |
| C36 | Expired client secrets are never used | valid_service_context modelled, and every method shown independent of the expiry | partial |
| C37 | Signing algorithm and audience choice of JWT client authentication | decision table of _get_audience_and_algorithm / choose_algorithm | partial |
| C38 | Request parameters follow a fixed precedence | gather_request_args as a loop; specification FirstNonEmpty over a list of places | proved |
| C39 | No non-error response is returned unverified | parse_response inversion, all formats | partial |
| C40 | HTTP failures are never processed as success | get_response/service_request on every status | partial |
| C41 | Requests are placed where the method demands | get_http_url/body with a real query codec | partial |
| C42 | Response bodies are interpreted by their content type | get_value_type decision logic | partial |
| C43 | Discovery accepts only metadata of the expected issuer | _verify_issuer/_update_service_context; SameIssuer specification on strings | partial |
| C44 | Endpoints come from the provider's metadata | _set_endpoints loop | partial |
| C45 | Negotiated behaviour is supported by both sides | match_preferences loop; MostPreferred specification | partial |
| C46 | Registered grant types cover the response types | response_types_to_grant_types over sets of words | partial |
| C47 | Callback URLs separate providers and flows | create_callbacks with an abstract hash; injectivity hypothesis where needed | partial |
| C48 | The redirect URI matches the flow | pick_redirect_uris decision logic | proved |
| C49 | Registration results are used | update_service_context of registration and read_registration | partial |
| C50 | A registration request never carries both jwks and jwks_uri | add_jwks_uri_or_jwks and oidc_post_construct | proved |
| C51 | WebFinger queries only use https and the host of the identifier | WebFinger.query on character lists; query decoded by a real parser | partial |
| C52 | WebFinger never accepts a plain-http issuer | loop over links | partial |
| C53 | Identifier kinds are recognised | URINormalizer on character lists | partial |
| C54 | Constant-time comparison is equality | lv_unpack/safe_str_cmp by induction | proved |
| C55 | Cookie round trip | make_cookie_content/parse_cookie with abstract MAC/AEAD | partial |
| C56 | Tampered cookies are rejected | unforgeability as a hypothesis on the MAC/AEAD parameter | proved |
| C57 | The boundary between payload and timestamp is authenticated | for all payloads and shifts | partial |
| C58 | The cookie dealer returns what it stored | cookie dealer over C55 | partial |
| C59 | DPoP proof describes the request it accompanies | DPoP add-on; the proof payload is observable | partial |
| C60 | The DPoP algorithm is supported by both sides | first common element of two lists | partial |
| C61 | Pushed authorization requests carry the whole request | PAR add-on over every answer | partial |
| C62 | HTTP cookies and per-request arguments are honoured | HTTPLib with its cookie jar as state | partial |
| C63 | add_path joins with exactly one slash | strings | proved |
| C64 | Request-object files map one-to-one to their web names | prefix arithmetic on strings | partial |
| C65 | Configuration placeholder substitution | recursive substitution on Val by structural induction | partial |
| C66 | Distributed claims cannot replace claims of other sources | loop over sources with abstract answers; frame lemma | partial |
| C67 | begin sends what it stores | begin followed to the log, URL and store | partial |
| C68 | finalize's result describes the session | inversion of finalize | proved |
| C69 | Responses are verified against the client's own registration | gather_verify_arguments of each service | proved |
| C70 | A client that is set up stays set up | frame over histories of all handler calls | proved |
| C71 | Providers do not affect each other | non-interference over histories; witness for shared configuration | partial |
| C72 | A request by reference serves the request of its own session | file system as dictionary, histories of calls | partial |
| C73 | Request objects are made by the client for the provider | construct_request_parameter with abstract JOSE; its arguments are observable | proved |
| C74 | With a request object the front channel carries nothing else | oidc_post_construct with request / request_uri | proved |
| C75 | Calls for other sessions do not change a session | frame over histories of all handler calls for other sessions | proved |
| C76 | Client-credentials tokens are stored and refreshed per session | client-credentials services over the store | partial |
| C77 | OAuth2 authorization requests are bound to a state | OAuth2 authorization service | proved |
| C78 | Session checks send the ID Token of their session | CheckSession/CheckID over the store | partial |
| C79 | Code exchange uses only what belongs to the session | token services: construct followed to the wire | proved |
| C80 | What the caller of begin asks for is what the provider is asked | init_authorization + service chain followed to the wire | partial |
| C81 | An honest login succeeds | completeness: progress lemmas for every step, composed; freshness over histories by invariant | proved |
| C82 | Token requests are authenticated with the negotiated method | get_client_authn_method + client authentication followed to the wire | proved |
| C83 | Setting up a client for a provider | inversion of client_setup to the requests sent and their answers | partial |
| C84 | A login can be begun | completeness of begin: progress lemma per step; the conditions are invariant under every handler call | proved |
| C85 | A client can be set up and used | completeness of client_setup: progress lemma for discovery, negotiation and registration, composed with C84 | proved |
| C86 | An honest refresh succeeds, as often as needed | completeness of refresh_access_token: progress lemma per step, then induction over the refreshes | proved |
| C87 | DPoP proofs can be verified | DPoPProof over an abstract JWS library; correctness and unforgeability as hypotheses on it | partial |
| C88 | Threads working on different sessions do not notice each other | the store as small-step programs over single dictionary operations, shown to refine the calls; non-interference of programs with disjoint footprints by induction on the schedule | partial |
| C89 | A crash never leaves a half written session | the same small-step programs, every prefix | partial |
| C90 | A login that failed can be repeated | the invariant behind C81 (issuer, request, verifier and nonce of the session, no refreshed token) for all calls, composed with completeness of finalize | proved |
| C91 | The session store can be kept elsewhere | the store calls as programs over an abstract mapping; simulation between mapping and dictionary, induction over the history | partial |
| C92 | Requests go where they should | get_request_parameters and do_request for all services; a frame relation (endpoints, metadata, add-ons stay; only pushes are sent) through the construction of every message | partial |
| C93 | Every provider has redirect URIs of its own | generate_request_uris over an abstract hash; injectivity of the URL in issuer and base; composed with the trace of init_authorization (C80) | proved |
| C94 | A session lives as long as it is refreshed | composition: the invariant of C11/C75 with the session record (refresh token, stored responses), kept by every call for other sessions and advanced by every refresh; induction over the rounds | proved |
| C95 | Each session behaves as if it were alone | two-run (relational) proof: a twin relation between clients that differ in other sessions, kept by every step of every own call in both runs and by every call of others in one; induction over the interleaving | proved |
| C96 | A client is put together as configured | init_services, the constructors and add_support as functions on service objects with their lists of methods; induction over the add-ons with an invariant (methods of the service, then those added); the loops of do_pre_construct etc. run on them are shown equal to the functions all other theorems are about; a frame relation through all calls for the handler | proved |
| C97 | The provider reads what the client wrote | composition of C92 (destination, method), C41 (decoding undoes encoding) and an induction over the message: it has every parameter once (through all constructors, client authentication and add-ons), so each is found with its values | proved |
| C98 | Responses are read in the format they are in | parse_response and parse_request_response as one relation between received text and message read (specification in Props/Formats), shown equivalent to the code by cases; the parts of a URL by the cut lemmas | proved |
| C99 | Every request goes out with the handler's HTTP settings | the network as a state machine (library with cookie jar, direct requests); the log of the client model run through it, induction over the log; the model of C40 is shown to be this network seen through the library | partial |
| C100 | Configured is what is used, in either spelling | RPConfiguration and create_context as functions of the dictionary; a relation (value under a name in either spelling) as specification, cases | partial |
| C101 | Claims are taken from the source named for them | post_parse_response of the userinfo service; induction over names and sources, each step the function "what the sources so far say of a claim, else what the provider said" | proved |
| C102 | Login URLs and user info requests do not leak secrets | non-interference: a relation between two clients (and two worlds) that differ in secrets only, shown to be kept by every step of init_authorization with equal results; for user info an equation between the requests made with two tokens | partial |
| C103 | Whose keys a client holds | the model of the context records every key put in the jar with its owner; an invariant of all clients of a handler over all histories: the jar holds exactly what a small specification lists | partial |
| C104 | A saved client goes on in another process | the parameter table of ServiceContext as a list of names, attributes by name, dump and load as loops over the table; round trip by the table, the attributes outside it by an invariant over all histories (what a client is made of stays) | partial |
| C105 | A login is only completed if it was begun here | an invariant over all histories (whence: which client may have the session and with which request; quiet: which nonces lead to it), also through clearing and setting up anew; composed with C16, C17 and C67 for the ID Token | proved |
| C106 | Random values | rndstr over an arbitrary source of numbers (form, every value); the Mersenne Twister behind it as a linear map of 19968 bits: linear dependence of 19969 vectors gives one recurrence for all seeds, from which a predictor for all later values | partial |
| C107 | Which login a callback finishes | the views as functions of the browser session and the handler; each request is shown to be one library call, so that a history of requests is a history of calls, to which C105 applies; that a session value is in one client only gives that address and provider agree | partial |
| C108 | Whose login it is | an invariant of the browser sessions over all histories; runs with two browsers as counterexamples | partial |
| C109 | Logout by the provider | cases over the two views; a run as counterexample that the library does verify the request | partial |
| C110 | An honest login at the site | C81 (the session still waits after any calls) for the calls behind the requests (C107), then the views step by step | proved |
| C111 | Another login from a session | the single step is rewritten to begin; the invariants of C11/C75 for histories extended by the single steps | proved |
| C112 | Metadata and registration asked for again | the two functions in closed form on a client that is set up; runs as counterexamples | partial |
| C113 | Every response type can be used to log in | the run of finalize step by step as in C81, for the remaining response types; the failing ones in closed form | partial |
| C114 | A login is about one user | a successful finalize traced back to its ID Token and user information (frames for the rest), the subject comparison of C25; C81 and runs as counterexamples | partial |
| C115 | Logging in with an OAuth2 server | the steps of C81 without ID Token; that a subject is needed: inversion of a successful finalize | partial |
| C116 | User information is what the provider said | inversion of a userinfo request that returned something: three cases by the status of the answer | partial |
| C117 | How long cookies live | a browser as specification (RFC 6265: identity by name, domain and path; expiry); membership in what it sends | partial |
| C118 | Requests are not in the log | the records of a request as a function next to the model of the request; parsing an answer does not look at what was sent; two runs compared | partial |
| C119 | The level of the log | invariant over histories of calls: without debug neither the default nor any dictionary changes | partial |
| C120 | DPoP: tokens bound to one key | every request made is traced to get_headers (lemmas of C59, C92); the relation between clients is carried through histories by a generic induction (Lemmas/Carried) | partial |
| C121 | A login with DPoP | C81 for the client that already has the key; a run of a client without a key is the same run with the key made on the way | proved |
| C122 | Logins begun at the same time | client objects by reference, begin as a sequence of steps (Model/Rush); simulation of the sequential handler for known providers (linearization order built along the schedule); an invariant over schedules for the rest | partial |
| C123 | What a call asks of the provider | a frame relation graded by the list of requests a computation may send (Sends L), composed along the calls; induction over histories; counting by List.count of sublists | proved |
| C124 | Calls made at the same time | calls as sequences of pieces, each an atomic operation on the shared client (Model/Desk), proved to compose to the calls; per piece a noninterference lemma (two clients that agree on the own session give the same piece result, Lemmas/DeskGood); simulation over schedules by induction | partial |
| C125 | Whole logins at the same time | as C124, with init_authorization as pieces (Model/Desk: constructing, authorizing, beginning); until the nonce is bound the session is "unused" at both clients, from then on it is its own (Lemmas/DeskBegin); simulation over schedules by induction; histories by an invariant of the store | partial |
| C126 | Calls of one handler at the same time, at any number of providers | threads that find their client (by name or by going through the clients) and then do the pieces of the call (Model/Office); simulation: the handler is at any time the family of desks of Model/Desk, one per provider, each run by a schedule of its own; a potential bounds the steps spent on look-ups; the sequential calls of the handler are shown to be the calls at the client | partial |
| C127 | A handler made with the defaults | the constructor and the defaults as functions (Model/Defaults), a process as a list of handlers beside the shared dictionary; every call but the start of a login by user identifier is shown not to look at which of the possible contents the dictionary has (Lemmas/Defaults), then induction over what happens; services and add-ons by the invariant of C96, logins by C21 | partial |
| C128 | The addresses of a client when its handler is made anew | what a client is made of is the same term for both handlers; discovery and registration as functions of the client and of what was found (not of time, random values or earlier requests), composed along client_setup | partial |

## 6. Where the code does not do what one would rely on

Each of these is stated in the model exactly as the code behaves; those that break a listed property have a
`_violated` theorem.

*Store and handler.* `begin` by an alias or by WebFinger creates a new client each time and replaces the one in use, so sessions in
flight are lost (C12). The issuer written into the shared default configuration stays there: a refused WebFinger request sends the user to
that provider (C83). `behaviour` of a configuration is shared and changed by all clients made of it (C71); a login that names no scope adds `openid` to it, and the refresh requests of every session change (C95). Metadata whose issuer
differs from the context's makes sessions unresolvable (C11). `get_user_info(state)` without a token always fails (C26). A response may be
replayed (C18). An error response is returned before state and issuer are checked, and needs a `state` (C14). With `code id_token`
the front-channel ID Token is discarded. Back-channel logout with `sub` and `sid` ignores `sid`. Clearing one of two sessions of a
user removes the look-up of the other (C29). `refresh_token_response` is never written; a refresh answer without refresh token loses
the old one (C24). Aggregated claims can replace `sub` after the check (C25).

*Requests.* `getattr(context, prop)` puts the StateInterface object into a request for a parameter `state`. `do_request` drops
`behaviour_args`; results of `pre_construct` methods' post arguments are dropped. A scope given as text is searched by substring, and a configured response type or mode is sent with the redirect URI of another flow (C80).
A nonce given by the caller with `token id_token` is never bound (C67). The endpoint's query overrides request parameters (C41).
Token requests carry `state`; a stored `client_secret` of a token response overrides the client's in refresh requests.
Client-credentials tokens requested without a session are stored under the empty key (C76). check_session and check_id send the
claims instead of the ID Token (C78).

*Responses.* jose/jws/jwe formatted texts are returned unverified (C39); a 4xx whose body is no error is stored as success (C40);
redirects of discovery and registration count as success (C43, C83); status 207-299 raise.

*Saving and loading.* A service context that is loaded replaces all sessions of the client it is loaded into; the endpoint attributes of the services and `registration_access_token` are not part of it, so old addresses win over the loaded metadata, and a token of one registration is combined with the identifier of another (C104).

*Keys.* The keys at the `jwks_uri` of a provider whose metadata is configured are never loaded (rp_handler.py:229-244 looks at `keys` only), so its signed ID Tokens cannot be verified; a provider that registers the client under the name of another issuer gets its secret filed as a key of that issuer (registration.py:285-286) (C103).

*Leaks.* GitHub's user info service puts the access token into the URL (C102). `sanitize` (util.py:97-98) is the identity, so a failing request is logged with its secrets (http.py:99-102; logging is not modelled).

*Client authentication.* Secrets' expiry is never consulted (C36); urlsafe base64 in Basic (C31); algorithm precedence at the token
endpoint (C37); with bearer authentication a refresh token moves into the header; refresh look-up falls back to the access token.

*Cookies.* No separator in the MAC (C57); the separator in the load breaks signed cookies (C55); a dealer with an encryption key still
accepts signed-only cookies; values with `::` (C58).

*Threads and crashes.* Two threads at work on one session lose updates (C88); an interrupted `remove_state` or `store_x2state` leaves index
entries that lead to a removed session, and repeating `remove_state` does not help (C89). A call that looks for its session while the client of another provider is being added raises `RuntimeError`: `state2issuer` iterates over the dictionary itself (rp_handler.py:113) (C126). `InMemoryStateDataBase` does not complain about removing a session it does not have, and `state_db` given to the handler is never used (C91). When two threads use a provider for the first time at once, one client replaces the other, and the session begun with the other is lost; with providers that have no configuration of their own, a user can be sent to the provider another user chose (C122). When two threads make the first DPoP proofs at a client at once, each makes a key (dpop.py:99-121), and the access token of one, bound to its key, is used with a proof by the other key (C124).

*Discovery, registration, WebFinger.* `issuer_mismatch` counts by presence (C43); stale endpoints (C44); reading a registration without a known location sends a request to the empty URL (C92); empty lists and substring
defaults in preference matching (C45); `token` implies no grant type (C46); typo "code idtoken" (C47); registration answers do not change the behaviour
(C49); WebFinger hosts (C51-C53).

`token` and `code token` logins fail without userinfo service, `collect_tokens` breaks `id_token token` (C113); the subjects of the two ID Tokens of a hybrid flow, and that of a refreshed ID Token, are not compared: a refresh can change the user of a session (C114); logins at servers whose claims have no `sub` (the documented GitHub, LinkedIn) never succeed (C115); a redirect from the userinfo endpoint is returned as the user information (C116); a cookie with a lifetime of 0 minutes lasts until the browser is closed, lifetimes are not checked by the dealer, an empty key given as bytes turns encryption off silently (C117); if a provider cannot be reached, the headers and the body of the request - client secret, code, refresh token - are logged at ERROR, `sanitize` does nothing (C118); logging once configured for debugging stays so, since the default dictionary is changed (C119).

`do_provider_info` for a session never renews metadata, and reads key files that fetched metadata name (C112).

*Add-ons.* PAR sends GET with a body and accepts only 200 (C61), and sends it with none of the handler's HTTP settings - no CA, no client certificate, redirects followed (C99); DPoP needs metadata for its algorithms (C60), its `htu` is that of
the metadata (C59); PKCE configured for a client without token service is silently left out (C96); `verify_header` never calls `verify`, and a `jwk` in the payload replaces the verified key (C87). Request object files with registered URIs are shared by all sessions (C72);
file names may leave the base URL (C64). With DPoP, refresh requests carry no proof and bound tokens are presented with the scheme `Bearer` rather than `DPoP` (C120).

*The example web application.* Generated callback addresses (authz_cb/<hash>) are not recognised, because `redirect_uris` of the context holds configured ones only (C107); the callback does not look at the browser's session: login CSRF (C108); neither back- nor front-channel logout ever succeeds: clients have no `session_interface`, and `request.data` is empty for forms (C109); `session_change` always raises (services have no `multiple_extend_request_args`); the route of the implicit flow has no provider identifier.

*Defaults.* `DEFAULT_CLIENT_CONFIGS` is one dictionary per process, into which `init_client` writes the issuer: a handler made without configurations starts with the issuer of whatever provider another handler was used for last, and sends a user whose WebFinger request is refused there; a default handler cannot log out (no `end_session` service), and says so with `AttributeError`, since `client_get` returns None where `logout` expects KeyError (C127). The `hash_seed` and `state_db` given to a handler are stored and never read (the example application passes its `hash_seed` there): the seed of the callback addresses is drawn at random for every client whose own configuration has none, so addresses change with every restart, and each client has a session store of its own (C128).

*HTTP.* `HTTPC_PARAMS` in upper case is ignored (C100). Cookies and request call backs never reach the request (C62); `Max-Age=0` does not delete. `random` instead of
`SystemRandom` makes the state, nonce and PKCE verifier of sessions: they can be computed from those handed out before (C106).
