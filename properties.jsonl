{"id": "C01", "title": "Sessions are isolated from each other", "statement": "Creating a session, or storing a request/response under one session key, changes what can be read (session record, stored items, issuer) under that key only; every read under any other session key returns exactly what it returned before.", "quantifier": "every store content, every pair of distinct session keys, every item and item type", "why_tests_cant": "tests look at one or two sessions; isolation must hold for every store content and key pair", "anchors": ["src/oidcrp/state_interface.py:StateInterface.store_item", "src/oidcrp/state_interface.py:StateInterface.create_state", "src/oidcrp/state_interface.py:StateInterface.get_item"]}
{"id": "C02", "title": "Stored items are read back", "statement": "An item stored for a session under an item type is what a later read of that session and type returns (without its empty-string parameters), until that same session and type is stored again or the session is created anew or removed; the other items of the session are unaffected. Reading an item that was never stored, or any item of an unknown session, raises KeyError.", "quantifier": "every store content reached by any history of operations, every key, type and item", "why_tests_cant": "depends on the whole history of operations, not on one call", "anchors": ["src/oidcrp/state_interface.py:StateInterface.store_item", "src/oidcrp/state_interface.py:StateInterface.get_item", "src/oidcrp/state_interface.py:StateInterface.get_state"]}
{"id": "C03", "title": "Reverse look-ups return the session they were bound to last", "statement": "Looking up a nonce, logout state, session id (sid) or subject returns the session it was most recently bound to, and raises KeyError if it was never bound (or the session it is recorded for was removed since).", "quantifier": "every history of bind / create / store / remove operations, every value and type", "why_tests_cant": "needs a statement over all histories of rebinding", "anchors": ["src/oidcrp/state_interface.py:StateInterface.store_x2state", "src/oidcrp/state_interface.py:StateInterface.get_state_by_x"]}
{"id": "C04", "title": "The four reverse indexes never interfere", "statement": "Binding a value of one kind (nonce, logout state, sid, sub) never changes the look-up of any value of another kind, nor of another value of the same kind, whatever characters the values contain.", "quantifier": "all pairs of (kind, value), any strings (attacker-supplied sub/sid/nonce included)", "why_tests_cant": "values are arbitrary strings chosen by the provider; the kinds share one flat dictionary", "anchors": ["src/oidcrp/state_interface.py:KEY_PATTERN", "src/oidcrp/state_interface.py:StateInterface.store_x2state"]}
{"id": "C05", "title": "Reserved session keys are refused", "statement": "Creating a session under a caller-supplied key must be refused whenever the key could be confused with an index entry, so that no session record can ever be overwritten by, or overwrite, an index entry.", "quantifier": "every caller-supplied key", "why_tests_cant": "all strings; the code only rejects one of the reserved shapes", "anchors": ["src/oidcrp/state_interface.py:StateInterface.create_state"]}
{"id": "C06", "title": "Removing a session erases it and its index entries", "statement": "After a session is removed, its record is gone and none of its nonces, logout states, sids or subjects resolve to it any more.", "quantifier": "every history leading to the removal", "why_tests_cant": "depends on how often and in which order values were rebound before the removal", "anchors": ["src/oidcrp/state_interface.py:StateInterface.remove_state"]}
{"id": "C07", "title": "Removing a session succeeds for every live session", "statement": "Removing a live session completes without an exception, whether or not anything was ever bound to it; removing an unknown session raises KeyError and changes nothing.", "quantifier": "every store reached by any history, every key", "why_tests_cant": "the failing cases need a session without index entries, or one sharing an index value", "anchors": ["src/oidcrp/state_interface.py:StateInterface.remove_state"]}
{"id": "C08", "title": "Removing a session leaves other sessions alone", "statement": "Removing one session leaves every other session's record and every reverse look-up that resolves to another session unchanged.", "quantifier": "every store reached by any history, every pair of sessions", "why_tests_cant": "needs two sessions with arbitrary sharing of index values", "anchors": ["src/oidcrp/state_interface.py:StateInterface.remove_state"]}
{"id": "C09", "title": "The flat store behaves as sessions plus four indexes", "statement": "Any sequence of create / store item / bind / remove operations on well-formed session keys has exactly the observable results of an abstract store that keeps session records and four separate index maps, although the code keeps everything in a single flat dictionary of strings.", "quantifier": "every finite sequence of operations with any arguments", "why_tests_cant": "refinement over unbounded histories", "anchors": ["src/oidcrp/state_interface.py:StateInterface"]}
{"id": "C10", "title": "Library-generated session keys never collide with index entries", "statement": "A session key generated by the library (32 letters and digits) is never equal to an index entry of any kind, nor to the bookkeeping entry of any generated session.", "quantifier": "every generated key, every index value", "why_tests_cant": "a collision is not observable by sampling", "anchors": ["src/oidcrp/state_interface.py:StateInterface.create_state", "src/oidcrp/util.py:rndstr"]}
{"id": "C11", "title": "A started session is resolved to its own provider", "statement": "After begin(issuer) returned a state value, state->issuer and state->client resolution yield that issuer and the client serving it, after any later sequence of begin / finalize / refresh / logout / userinfo calls for this or other providers, until the session is cleared.", "quantifier": "every history of handler calls, every interleaving of sessions and providers, every provider answer", "why_tests_cant": "quantifies over histories with several providers", "anchors": ["src/oidcrp/rp_handler.py:RPHandler.state2issuer", "src/oidcrp/rp_handler.py:RPHandler.get_client_from_session_key", "src/oidcrp/rp_handler.py:RPHandler.begin"]}
{"id": "C12", "title": "Starting a new session never loses sessions in flight", "statement": "Calling begin again (same provider, other provider, by issuer or by user identifier) never makes an earlier started session unresolvable.", "quantifier": "every history of begin calls", "why_tests_cant": "needs two begins through an alias or webfinger; unit tests use one", "anchors": ["src/oidcrp/rp_handler.py:RPHandler.client_setup", "src/oidcrp/rp_handler.py:RPHandler.init_client"]}
{"id": "C13", "title": "An authorization response is only accepted for the provider the session was started with", "statement": "finalize(issuer, response) stores an authorization response or fetches tokens only if the response's state belongs to a session started with exactly that issuer at that client; otherwise it raises and leaves the store unchanged.", "quantifier": "every issuer, every response, every history", "why_tests_cant": "security property over all attacker-chosen responses", "anchors": ["src/oidcrp/rp_handler.py:RPHandler.finalize_auth", "src/oidcrp/rp_handler.py:RPHandler.finalize"]}
{"id": "C14", "title": "Unknown, missing or cleared state values are rejected without side effect", "statement": "If a non-error authorization response carries no state, or a state that was never issued by this client or has been cleared, finalize raises, sends no request and changes no session.", "quantifier": "every response, every history", "why_tests_cant": "universal over forged state values and histories", "anchors": ["src/oidcrp/rp_handler.py:RPHandler.finalize_auth"]}
{"id": "C15", "title": "Error authorization responses change nothing", "statement": "An authorization response with an 'error' parameter is reported (state and error returned) and never changes any stored session nor triggers a token or userinfo request.", "quantifier": "every error response, every store", "why_tests_cant": "all responses", "anchors": ["src/oidcrp/rp_handler.py:RPHandler.finalize", "src/oidcrp/service.py:Service.parse_response"]}
{"id": "C16", "title": "ID Token nonce in the authorization response must match the request", "statement": "If the authorization response carries a verified ID Token and the stored request for its state has a nonce, the response is accepted only if the ID Token has the same nonce; a missing nonce or a different nonce is an error.", "quantifier": "every response and every stored request", "why_tests_cant": "all nonce combinations incl. absent/empty", "anchors": ["src/oidcrp/oidc/authorization.py:Authorization.post_parse_response"]}
{"id": "C17", "title": "ID Token nonce in the token response must belong to this session", "statement": "A token response carrying a verified ID Token is stored for a session only if the token's nonce was bound to exactly this session; a nonce of another session, an unknown nonce or no nonce is an error and nothing is stored.", "quantifier": "every token response, every store", "why_tests_cant": "universal over cross-session injection", "anchors": ["src/oidcrp/oidc/access_token.py:AccessToken.update_service_context"]}
{"id": "C18", "title": "An authorization response is single use", "statement": "A given authorization response is accepted at most once for a session; replaying it is refused.", "quantifier": "every history in which finalize is called twice with the same response", "why_tests_cant": "needs a history; the code keeps no consumed marker", "anchors": ["src/oidcrp/rp_handler.py:RPHandler.finalize_auth"]}
{"id": "C19", "title": "Which tokens are returned is decided by the requested response type", "statement": "For each response_type stored with the session, the returned access token and ID token come from the authorization response, from the token endpoint, or are absent, exactly as the flow defines: code and 'code id_token' use the token endpoint; 'token', 'id_token token', 'code token', 'code id_token token' take the access token from the authorization response (or, when the caller asks to collect tokens, from the token endpoint); id_token flows take the ID token from the authorization response.", "quantifier": "every response_type set, every response, both settings of collect_tokens", "why_tests_cant": "table over all response type sets and orders of words", "anchors": ["src/oidcrp/rp_handler.py:RPHandler.get_access_and_id_token"]}
{"id": "C20", "title": "The token request is bound to the session", "statement": "The token request sent while finalizing carries the code received in this session's authorization response, the redirect_uri of this session's authorization request, grant_type authorization_code and this client's id, for whatever else is stored for this or other sessions.", "quantifier": "every store, every session, any stored items", "why_tests_cant": "must hold for all stored requests/responses, incl. ones containing conflicting parameters", "anchors": ["src/oidcrp/rp_handler.py:RPHandler.get_tokens", "src/oidcrp/oauth2/access_token.py:AccessToken.oauth_pre_construct"]}
{"id": "C21", "title": "PKCE: the verifier sent matches the challenge of the same session", "statement": "With PKCE enabled the token request of a session carries the verifier whose transformation (S256/S384/S512) was sent as code_challenge in that session's authorization request, with any number of sessions in flight; an unsupported method is refused; the verifier itself is never part of the authorization request.", "quantifier": "every hash, every verifier, every interleaving of sessions", "why_tests_cant": "binding across calls and sessions", "anchors": ["src/oidcrp/oauth2/add_on/pkce.py:add_code_challenge", "src/oidcrp/oauth2/add_on/pkce.py:add_code_verifier"]}
{"id": "C22", "title": "get_valid_access_token never returns an expired token", "statement": "get_valid_access_token returns a stored access token without expiry, or else the one with the latest expiry, strictly in the future; when every stored access token has expired (or none is stored) it raises; the first non-expiring one wins.", "quantifier": "every combination of stored responses, every clock value", "why_tests_cant": "boundary over all times and combinations", "anchors": ["src/oidcrp/rp_handler.py:RPHandler.get_valid_access_token"]}
{"id": "C23", "title": "has_active_authentication is true iff the latest verified ID Token is unexpired", "statement": "has_active_authentication(state) is True exactly if the latest stored response that has a verified ID Token has one with exp strictly later than now; False if there is none.", "quantifier": "every store, every clock value", "why_tests_cant": "boundary and precedence over all stores", "anchors": ["src/oidcrp/rp_handler.py:RPHandler.has_active_authentication"]}
{"id": "C24", "title": "Refreshing keeps a usable refresh token", "statement": "After a successful refresh the refresh token that a further refresh would send is the new one if one was returned and otherwise the previous one.", "quantifier": "every refresh response", "why_tests_cant": "needs two consecutive refreshes with a response lacking refresh_token", "anchors": ["src/oidcrp/oauth2/refresh_access_token.py:RefreshAccessToken.update_service_context"]}
{"id": "C25", "title": "User info is only accepted for the authenticated subject", "statement": "When a session has a verified ID Token with a subject, user info stored for and returned to the session has that same subject; a different subject is an error and nothing is stored.", "quantifier": "every userinfo response incl. aggregated claims, every store", "why_tests_cant": "aggregated claims are merged after the check", "anchors": ["src/oidcrp/oidc/userinfo.py:UserInfo.post_parse_response"]}
{"id": "C26", "title": "get_user_info without an explicit token uses the session's token", "statement": "get_user_info(state) without access_token sends the latest access token stored for the session.", "quantifier": "every store with a stored access token", "why_tests_cant": "depends on the whole pipeline of three modules", "anchors": ["src/oidcrp/rp_handler.py:RPHandler.get_user_info", "src/oidcrp/oidc/userinfo.py:UserInfo.oidc_pre_construct"]}
{"id": "C27", "title": "Back-channel logout finds the session", "statement": "A verified logout token resolves to the session last bound to its sub, or, if it has no sub, to its sid; with neither it is refused; an unknown subject raises KeyError; nothing is changed.", "quantifier": "every logout token, every store", "why_tests_cant": "all combinations of sub/sid and histories", "anchors": ["src/oidcrp/rp_handler.py:backchannel_logout"]}
{"id": "C28", "title": "RP-initiated logout request belongs to the session", "statement": "The end-session request carries as id_token_hint the latest ID Token (as received) of this session, the chosen or registered post-logout URI, and a state value that afterwards resolves to this session.", "quantifier": "every store, every session", "why_tests_cant": "all stores and URI configurations", "anchors": ["src/oidcrp/oidc/end_session.py:EndSession", "src/oidcrp/rp_handler.py:RPHandler.logout"]}
{"id": "C29", "title": "Clearing a session ends it", "statement": "After clear_session(state) the handler no longer resolves the state to a client, a late authorization response for it is rejected, and other sessions are unaffected.", "quantifier": "every history", "why_tests_cant": "history property", "anchors": ["src/oidcrp/rp_handler.py:RPHandler.clear_session"]}
{"id": "C30", "title": "client_secret_basic: the header decodes to the client's credentials and the secret leaves the request", "statement": "The Authorization header is 'Basic ' followed by an encoding that decodes to urlencoded(id):urlencoded(secret) from which exactly the client id and secret are recovered; two different credential pairs never give the same header; the client secret is not in the request afterwards, and the client id remains only for authorization_code token requests or if the request type requires it.", "quantifier": "every client id and secret (any characters), every request", "why_tests_cant": "all byte strings incl. ':' '%' '+'", "anchors": ["src/oidcrp/client_auth.py:ClientSecretBasic.construct"]}
{"id": "C31", "title": "Basic credentials are standard base64", "statement": "The Basic header is the RFC 7617 (standard alphabet) base64 of the credentials for every id and secret.", "quantifier": "every client id and secret", "why_tests_cant": "only fails for particular byte alignments", "anchors": ["src/oidcrp/client_auth.py:ClientSecretBasic.construct"]}
{"id": "C32", "title": "client_secret_post puts exactly id and secret into the request", "statement": "The request afterwards carries the client id of the context and the secret given (in the request, as argument, or in the context, in that order), everything else is untouched; if no secret can be found, authentication fails with an error and not with an unauthenticated request.", "quantifier": "every request, every context", "why_tests_cant": "all sources and precedences", "anchors": ["src/oidcrp/client_auth.py:ClientSecretPost.construct"]}
{"id": "C33", "title": "JWT client authentication sends an assertion bound to this client and endpoint, and never the secret", "statement": "client_secret_jwt/private_key_jwt: the request afterwards has a client_assertion made for client_id as issuer, the audience of the endpoint, the chosen algorithm, and client_assertion_type jwt-bearer; client_secret never remains, client_id only if the request type requires it.", "quantifier": "every request, context and algorithm configuration", "why_tests_cant": "all configurations", "anchors": ["src/oidcrp/client_auth.py:JWSAuthnMethod.construct"]}
{"id": "C34", "title": "Bearer authentication sends the token once", "statement": "bearer_header: the Authorization header is 'Bearer ' + the access token found for the request, and the token no longer is a request parameter; bearer_body: the token is a request parameter. If no token can be found an error is raised.", "quantifier": "every request, every session, every token", "why_tests_cant": "all sources", "anchors": ["src/oidcrp/client_auth.py:BearerHeader.construct", "src/oidcrp/client_auth.py:BearerBody.construct"]}
{"id": "C35", "title": "Token look-up precedence", "statement": "The token used is the one in the request; else the explicitly passed access token; else the latest stored in the session; otherwise KeyError.", "quantifier": "every combination of sources", "why_tests_cant": "combinations", "anchors": ["src/oidcrp/client_auth.py:find_token"]}
{"id": "C36", "title": "Expired client secrets are never used", "statement": "A client whose secret has an expiry in the past is not authenticated with it: authentication raises; an expiry of 0 or none means it never expires.", "quantifier": "every time and expiry", "why_tests_cant": "boundary", "anchors": ["src/oidcrp/client_auth.py:valid_service_context"]}
{"id": "C37", "title": "Signing algorithm and audience choice of JWT client authentication", "statement": "The algorithm is the explicitly given one, else the one registered for this endpoint, else the default for the method; the audience is the issuer, or at the token endpoint the token endpoint's URL; without an audience there is an error.", "quantifier": "every configuration", "why_tests_cant": "combinations", "anchors": ["src/oidcrp/client_auth.py:JWSAuthnMethod.choose_algorithm", "src/oidcrp/client_auth.py:JWSAuthnMethod.construct"]}
{"id": "C38", "title": "Request parameters follow a fixed precedence", "statement": "A parameter of the request is: the value the caller gave; else the first non-empty one of client context, service configuration, registration arguments, service defaults, behaviour; parameters the request type does not define are only sent if given by the caller.", "quantifier": "every parameter, every combination of sources", "why_tests_cant": "combinations of five sources with empty values", "anchors": ["src/oidcrp/service.py:Service.gather_request_args"]}
{"id": "C39", "title": "No non-error response is returned unverified", "statement": "parse_response returns a non-error response only after its verification succeeded and the service specific checks passed; a failed verification is always an exception; an error response skips verification and is returned as an error.", "quantifier": "every response, every format", "why_tests_cant": "universal over formats; some formats skip verification", "anchors": ["src/oidcrp/service.py:Service.parse_response"]}
{"id": "C40", "title": "HTTP failures are never processed as success", "statement": "Only 2xx answers are parsed as a successful response and lead to stored results; 4xx answers are error responses and never change a session; 5xx and unknown codes raise.", "quantifier": "every HTTP status, every body", "why_tests_cant": "all status codes and bodies", "anchors": ["src/oidcrp/oauth2/__init__.py:Client.parse_request_response", "src/oidcrp/oauth2/__init__.py:Client.service_request"]}
{"id": "C41", "title": "Requests are placed where the method demands", "statement": "For GET/DELETE the URL is the endpoint plus exactly the encoded request ('?' or '&' chosen correctly, unchanged if the request is empty) and for POST the URL is the endpoint and the body is the serialisation the content type asks for; other content types are refused; for other methods nothing of the request is put into the URL.", "quantifier": "every URL, method, request and content type", "why_tests_cant": "all combinations", "anchors": ["src/oidcrp/util.py:get_http_url", "src/oidcrp/util.py:get_http_body", "src/oidcrp/service.py:Service.get_request_parameters"]}
{"id": "C42", "title": "Response bodies are interpreted by their content type", "statement": "The deserialisation method chosen is determined by the media type alone (parameters such as charset ignored): JSON, JWT, JOSE, urlencoded, text/html; unknown types give the empty answer / error, and a mismatch with the expected type is rejected by verify_header.", "quantifier": "every content-type header", "why_tests_cant": "all header strings", "anchors": ["src/oidcrp/util.py:get_deserialization_method", "src/oidcrp/util.py:verify_header", "src/oidcrp/util.py:match_to_"]}
{"id": "C43", "title": "Discovery accepts only metadata of the expected issuer", "statement": "Provider metadata is accepted only if its issuer equals the issuer the client was set up with (up to one trailing slash), unless a mismatch was explicitly allowed; otherwise an error is raised and nothing of the metadata is used.", "quantifier": "every metadata document, every issuer string", "why_tests_cant": "all string pairs; depends on the allow setting", "anchors": ["src/oidcrp/oauth2/provider_info_discovery.py:ProviderInfoDiscovery._verify_issuer", "src/oidcrp/oauth2/provider_info_discovery.py:ProviderInfoDiscovery._update_service_context"]}
{"id": "C44", "title": "Endpoints come from the provider's metadata", "statement": "After discovery every *_endpoint of the metadata is what the service(s) with that endpoint name use.", "quantifier": "every metadata document, every set of services", "why_tests_cant": "several services share an endpoint name", "anchors": ["src/oidcrp/oauth2/provider_info_discovery.py:ProviderInfoDiscovery._set_endpoints", "src/oidcrp/service.py:Service.get_endpoint"]}
{"id": "C45", "title": "Negotiated behaviour is supported by both sides", "statement": "After matching, each behaviour value is one the client prefers and, if the provider publishes the list of supported values, one the provider supports; the most preferred is chosen; no common value is an error.", "quantifier": "every preference list and provider metadata", "why_tests_cant": "all lists; stale values", "anchors": ["src/oidcrp/oidc/provider_info_discovery.py:ProviderInfoDiscovery.match_preferences"]}
{"id": "C46", "title": "Registered grant types cover the response types", "statement": "The grant types derived for registration contain exactly those needed by the response types: code -> authorization_code, id_token/token -> implicit, hybrids -> both.", "quantifier": "every list of response types", "why_tests_cant": "all combinations/permutations", "anchors": ["src/oidcrp/oidc/registration.py:response_types_to_grant_types"]}
{"id": "C47", "title": "Callback URLs separate providers and flows", "statement": "The callback URLs generated for one provider are pairwise different between flows, and different providers never share a callback URL (given the hash does not collide), and every configured response type has a callback.", "quantifier": "every base URL, every pair of issuers, every list of response types", "why_tests_cant": "all strings", "anchors": ["src/oidcrp/oidc/registration.py:create_callbacks", "src/oidcrp/oidc/registration.py:add_callbacks"]}
{"id": "C48", "title": "The redirect URI matches the flow", "statement": "The redirect URI used is: the caller's; else the first registered; else the callback for the flow (form_post / code / implicit); none -> error.", "quantifier": "every context and request", "why_tests_cant": "combinations", "anchors": ["src/oidcrp/oauth2/utils.py:pick_redirect_uri"]}
{"id": "C49", "title": "Registration results are used", "statement": "After registration the client id, secret, expiry and registration access token are those of the registration response (0 expiry = none), and every agreed parameter overrides the client's own choice.", "quantifier": "every registration response", "why_tests_cant": "all responses", "anchors": ["src/oidcrp/oidc/registration.py:Registration.update_service_context"]}
{"id": "C50", "title": "A registration request never carries both jwks and jwks_uri", "statement": "The registration request carries the client's keys by reference or by value, never both, and any given by the caller wins.", "quantifier": "every context", "why_tests_cant": "combinations", "anchors": ["src/oidcrp/oidc/registration.py:add_jwks_uri_or_jwks"]}
{"id": "C51", "title": "WebFinger queries only use https and the host of the identifier", "statement": "For every identifier that is accepted the query URL is https at the host (and port) derived from the identifier, with the identifier as percent-encoded resource.", "quantifier": "every identifier string", "why_tests_cant": "all strings", "anchors": ["src/oidcrp/oidc/webfinger.py:WebFinger.query", "src/oidcrp/oidc/webfinger.py:WebFinger.create_url"]}
{"id": "C52", "title": "WebFinger never accepts a plain-http issuer", "statement": "The issuer taken from a WebFinger answer never is a plain http URL unless http links are explicitly allowed.", "quantifier": "every answer, every spelling of the scheme", "why_tests_cant": "all strings; case variants", "anchors": ["src/oidcrp/oidc/webfinger.py:WebFinger.update_service_context"]}
{"id": "C53", "title": "Identifier kinds are recognised", "statement": "Identifier syntax decides host extraction: URL, acct:, bare host/path, e-mail-like, device:, XRI unsupported.", "quantifier": "every identifier", "why_tests_cant": "all strings", "anchors": ["src/oidcrp/oidc/webfinger.py:WebFinger.query"]}
{"id": "C54", "title": "Constant-time comparison is equality", "statement": "safe_str_cmp(a, b) is True exactly if a == b.", "quantifier": "all pairs of strings", "why_tests_cant": "all pairs", "anchors": ["src/oidcrp/cookie.py:safe_str_cmp"]}
{"id": "C55", "title": "Cookie round trip", "statement": "Parsing a cookie made with the same keys returns exactly the payload and timestamp it was made with, in signed-only and in encrypted mode.", "quantifier": "every payload, timestamp and key", "why_tests_cant": "all strings incl. separators", "anchors": ["src/oidcrp/cookie.py:make_cookie", "src/oidcrp/cookie.py:parse_cookie"]}
{"id": "C56", "title": "Tampered cookies are rejected", "statement": "A signed cookie is accepted only if its tag is the MAC of its own payload and timestamp under the signing key; changing tag, or payload and timestamp content, is rejected.", "quantifier": "every cookie string, every MAC function", "why_tests_cant": "universal over forged cookies", "anchors": ["src/oidcrp/cookie.py:parse_cookie", "src/oidcrp/cookie.py:cookie_signature"]}
{"id": "C57", "title": "The boundary between payload and timestamp is authenticated", "statement": "Two cookies whose payload/timestamp split differs never verify under the same tag.", "quantifier": "all payload, timestamp pairs", "why_tests_cant": "needs crafted splits", "anchors": ["src/oidcrp/cookie.py:cookie_signature"]}
{"id": "C58", "title": "The cookie dealer returns what it stored", "statement": "get_cookie_value of a created cookie returns (value, timestamp, type); a cookie whose inner and outer timestamps differ is refused.", "quantifier": "every value, type, timestamp", "why_tests_cant": "all strings", "anchors": ["src/oidcrp/cookie.py:CookieDealer"]}
{"id": "C59", "title": "DPoP proof describes the request it accompanies", "statement": "The DPoP header of a request is a proof with the request's URL and HTTP method, made with the client's DPoP key, and the key and algorithm do not change between requests of a client.", "quantifier": "every sequence of requests", "why_tests_cant": "history of requests", "anchors": ["src/oidcrp/oauth2/add_on/dpop.py:dpop_header"]}
{"id": "C60", "title": "The DPoP algorithm is supported by both sides", "statement": "The DPoP signing algorithm chosen is one the client is configured with and the provider announced; with none in common no proof is sent and headers are unchanged.", "quantifier": "every configuration", "why_tests_cant": "all lists", "anchors": ["src/oidcrp/oauth2/add_on/dpop.py:dpop_header"]}
{"id": "C61", "title": "Pushed authorization requests carry the whole request", "statement": "With PAR the full authorization request is sent to the PAR endpoint, and on success the front-channel request consists of the returned request_uri only (plus the required parameters in lax mode); on failure the original request is used.", "quantifier": "every request, every answer", "why_tests_cant": "all answers", "anchors": ["src/oidcrp/oauth2/add_on/pushed_authorization.py:push_authorization"]}
{"id": "C62", "title": "HTTP cookies and per-request arguments are honoured", "statement": "HTTP requests carry the cookies stored for the connection and the arguments a request callback adds.", "quantifier": "every cookie jar, every request", "why_tests_cant": "state dependent", "anchors": ["src/oidcrp/http.py:HTTPLib.__call__"]}
{"id": "C63", "title": "add_path joins with exactly one slash", "statement": "add_path(url, path) yields url and path joined by exactly one '/', for all combinations of trailing/leading slash.", "quantifier": "all string pairs", "why_tests_cant": "all strings", "anchors": ["src/oidcrp/util.py:add_path"]}
{"id": "C64", "title": "Request-object files map one-to-one to their web names", "statement": "The local file name of a request_uri is determined by its path under the base URL and different web names under the base URL have different files; foreign URLs are refused.", "quantifier": "all web names", "why_tests_cant": "all strings", "anchors": ["src/oidcrp/service_context.py:ServiceContext.filename_from_webname"]}
{"id": "C65", "title": "Configuration placeholder substitution", "statement": "replace/lower_or_upper/set_param treat every key as specified and leave values without placeholders unchanged.", "quantifier": "all configurations (nested to any depth)", "why_tests_cant": "recursive structure", "anchors": ["src/oidcrp/util.py:lower_or_upper", "src/oidcrp/util.py:replace", "src/oidcrp/util.py:set_param"]}
{"id": "C66", "title": "Distributed claims cannot replace claims of other sources", "statement": "fetch_distributed_claims adds only the claims that _claim_names assigns to the source they are fetched from, and keeps all other claims.", "quantifier": "every userinfo, every fetched answer", "why_tests_cant": "all documents", "anchors": ["src/oidcrp/oidc/__init__.py:RP.fetch_distributed_claims"]}
{"id": "C67", "title": "begin sends what it stores", "statement": "The authorization request begin sends carries the session's state and a nonce bound to that state, and the very same request is stored with the session, for every client configuration with an id_token/code response type.", "quantifier": "every configuration, every request argument", "why_tests_cant": "all configurations", "anchors": ["src/oidcrp/rp_handler.py:RPHandler.init_authorization", "src/oidcrp/oidc/authorization.py:Authorization.oidc_post_construct"]}
{"id": "C68", "title": "finalize's result describes the session", "statement": "When finalize succeeds, the returned state is the response's state, the session's subject index resolves the subject (of the ID Token, else of the user info) to this session, and the authorization response is stored with it.", "quantifier": "every response, every provider answer", "why_tests_cant": "composition of four service calls", "anchors": ["src/oidcrp/rp_handler.py:RPHandler.finalize"]}
{"id": "C69", "title": "Responses are verified against the client's own registration", "statement": "Every non-error response is verified with the client's own issuer, client id, clock skew and registered algorithms, unless the caller's verify_args explicitly override one of them; what the client sent cannot be verified against another client's registration.", "quantifier": "every service, every response, every client configuration", "why_tests_cant": "all configurations and responses", "anchors": ["src/oidcrp/service.py:Service.parse_response", "src/oidcrp/oidc/authorization.py:Authorization.gather_verify_arguments", "src/oidcrp/oidc/access_token.py:AccessToken.gather_verify_arguments"]}
{"id": "C70", "title": "A client that is set up stays set up", "statement": "Whatever API calls are made, for whatever sessions and providers, the client kept for an issuer keeps its issuer, provider metadata, endpoints, client credentials, redirect URIs, configuration and services, as long as it is not set up anew.", "quantifier": "every handler, every history of API calls", "why_tests_cant": "histories of any length over any number of providers", "anchors": ["src/oidcrp/rp_handler.py:RPHandler.begin", "src/oidcrp/rp_handler.py:RPHandler.finalize", "src/oidcrp/rp_handler.py:RPHandler.client_setup"]}
{"id": "C71", "title": "Providers do not affect each other", "statement": "What is negotiated with one provider is not used at another: calls that concern other providers leave the client of a provider, its behaviour, sessions and requests as they are.", "quantifier": "every handler, every history of API calls", "why_tests_cant": "histories over several providers", "anchors": ["src/oidcrp/rp_handler.py:RPHandler.init_client", "src/oidcrp/service_context.py:ServiceContext.__init__", "src/oidcrp/oidc/provider_info_discovery.py:ProviderInfoDiscovery.match_preferences"]}
{"id": "C72", "title": "A request by reference serves the request of its own session", "statement": "The URL returned for a request sent by reference leads to a file with exactly the request object of that session, no file that existed is overwritten, and later requests do not change it.", "quantifier": "every history of requests, all random names", "why_tests_cant": "histories of requests by several sessions", "anchors": ["src/oidcrp/oidc/authorization.py:Authorization.store_request_on_file", "src/oidcrp/oidc/utils.py:construct_request_uri"]}
{"id": "C73", "title": "Request objects are made by the client for the provider", "statement": "A request object has the claims of the authorization request, is signed with the algorithm asked for, negotiated or RS256, names the client as issuer and the provider as audience, and is encrypted whenever an encryption algorithm is asked for or negotiated, never sent unencrypted instead.", "quantifier": "every request, configuration and option", "why_tests_cant": "combinations of options", "anchors": ["src/oidcrp/oidc/authorization.py:Authorization.construct_request_parameter", "src/oidcrp/oidc/authorization.py:Authorization.get_request_object_signing_alg", "src/oidcrp/oidc/utils.py:request_object_encryption"]}
{"id": "C74", "title": "With a request object the front channel carries nothing else", "statement": "When a request object is asked for, the authorization URL carries the request object by value or by reference, made of the request stored in the session, and besides only the parameters that are required; if no request object can be made no URL is returned.", "quantifier": "every request, configuration and option", "why_tests_cant": "all requests", "anchors": ["src/oidcrp/oidc/authorization.py:Authorization.oidc_post_construct"]}
{"id": "C75", "title": "Calls for other sessions do not change a session", "statement": "After a session has begun, and after any calls for it, calls for other sessions (beginning, finalizing, refreshing, looking up, logging out, clearing), with any answers and failures, leave the session information of this one exactly as it was, as long as its client is not replaced.", "quantifier": "every handler, every history of API calls before, every history of calls for other sessions", "why_tests_cant": "interleavings of any number of sessions", "anchors": ["src/oidcrp/rp_handler.py:RPHandler.get_session_information", "src/oidcrp/rp_handler.py:RPHandler.begin", "src/oidcrp/rp_handler.py:RPHandler.finalize", "src/oidcrp/rp_handler.py:RPHandler.clear_session", "src/oidcrp/state_interface.py:StateInterface"]}
{"id": "C76", "title": "Client-credentials tokens are stored and refreshed per session", "statement": "A successful client-credentials (or plain OAuth2) token answer is stored, with its expiry, under the session that was named and nowhere else; anything else leaves the store as it was; a later refresh for that session sends exactly the stored refresh token to the token endpoint and carries no client id or secret in its parameters unless the authentication method puts them there. Also when no session is named (one default session).", "quantifier": "every request argument, every provider answer, every store", "why_tests_cant": "all answers and stores; composition of two calls", "anchors": ["src/oidcrp/oauth2/client_credentials/cc_access_token.py:CCAccessToken", "src/oidcrp/oauth2/client_credentials/cc_refresh_access_token.py:CCRefreshAccessToken", "src/oidcrp/oauth2/__init__.py:Client.do_request"]}
{"id": "C77", "title": "OAuth2 authorization requests are bound to a state", "statement": "An authorization request made by the OAuth2 service is stored under the state it carries, has every parameter the caller gave, is what the URL carries, and changes no other session; without a state no request is made; the scope of an accepted response is its own or that of the session's request.", "quantifier": "every request argument, configuration, store and response", "why_tests_cant": "all arguments and stores", "anchors": ["src/oidcrp/oauth2/authorization.py:Authorization", "src/oidcrp/oauth2/utils.py:set_state_parameter", "src/oidcrp/oauth2/utils.py:pick_redirect_uris"]}
{"id": "C78", "title": "Session checks send the ID Token of their session", "statement": "check_session and check_id send the ID Token of the latest response of the session named, and make no request for an unknown session.", "quantifier": "every store, session and argument", "why_tests_cant": "all stores", "anchors": ["src/oidcrp/oidc/check_session.py:CheckSession.oidc_pre_construct", "src/oidcrp/oidc/check_id.py:CheckID.oidc_pre_construct"]}
{"id": "C79", "title": "Code exchange uses only what belongs to the session", "statement": "A token request for session k (OAuth2 or OIDC) sends the code of the session's authorization response, the redirect URI of its authorization request, grant type authorization_code and (with PKCE) the verifier made for that session, unless the caller gave them; it goes to the token endpoint and building it changes nothing.", "quantifier": "every store with any number of sessions, all arguments and configurations", "why_tests_cant": "all stores and arguments", "anchors": ["src/oidcrp/oauth2/access_token.py:AccessToken.oauth_pre_construct", "src/oidcrp/oauth2/add_on/pkce.py:add_code_verifier", "src/oidcrp/service.py:Service.construct"]}
{"id": "C80", "title": "What the caller of begin asks for is what the provider is asked", "statement": "Every parameter given to begin, or configured for the client, is in the stored authorization request and in the URL; without them the negotiated response type and scope are used; the scope always has openid; offline access asks for consent unless another prompt was asked for; the redirect URI is the one given, else the first one registered, else the callback for the response type and mode asked for.", "quantifier": "every request argument, configuration and handler", "why_tests_cant": "all arguments and configurations", "anchors": ["src/oidcrp/rp_handler.py:RPHandler.begin", "src/oidcrp/rp_handler.py:RPHandler.init_authorization", "src/oidcrp/oidc/authorization.py:Authorization.oidc_pre_construct", "src/oidcrp/oidc/authorization.py:Authorization.oidc_post_construct"]}
{"id": "C81", "title": "An honest login succeeds", "statement": "If a session was begun, whatever other sessions do in the meantime, and the provider answers it as the specifications say, then finalize succeeds: it makes exactly the token and userinfo requests of the flow and returns the user's claims, the session, the access token and the ID Token, and the subject leads to the session from then on.", "quantifier": "every client configuration that is equipped for the flow, every history of calls for other sessions, every honest answer", "why_tests_cant": "all histories and configurations: success must not depend on other sessions", "anchors": ["src/oidcrp/rp_handler.py:RPHandler.begin", "src/oidcrp/rp_handler.py:RPHandler.finalize", "src/oidcrp/rp_handler.py:RPHandler.get_access_and_id_token", "src/oidcrp/rp_handler.py:RPHandler.get_user_info", "src/oidcrp/rp_handler.py:RPHandler.userinfo_in_id_token"]}
{"id": "C82", "title": "Token requests are authenticated with the negotiated method", "statement": "Fetching or refreshing the tokens of a session sends nothing, or one request that is authenticated as this client with the method negotiated with the provider: with client_secret_basic the header decodes to id and secret and the parameters do not have the secret, with client_secret_post id and secret are among the parameters and there is no header, with a JWT there is an assertion and no secret.", "quantifier": "every store, session, client id, secret and configuration", "why_tests_cant": "all stores and secrets", "anchors": ["src/oidcrp/rp_handler.py:RPHandler.get_client_authn_method", "src/oidcrp/rp_handler.py:RPHandler.get_tokens", "src/oidcrp/rp_handler.py:RPHandler.refresh_access_token", "src/oidcrp/service.py:Service.get_headers", "src/oidcrp/client_auth.py"]}
{"id": "C83", "title": "Setting up a client for a provider", "statement": "Setting up a client for a named provider makes it of that provider's configuration (or of the default one with the issuer filled in), asks at most once for the metadata, at that issuer or the configured discovery URL, accepts only metadata that names it, and registers at most once, at the registration endpoint of that metadata, with the parameters given and configured; it is kept without sessions, with the identity configured or registered, and its services use the endpoints of the metadata. A known provider is not set up again. A user's provider is the one the answer to one WebFinger request for that user names. A failed setup keeps no client.", "quantifier": "every handler, configuration, user, argument and answer of the provider", "why_tests_cant": "all configurations and answers", "anchors": ["src/oidcrp/rp_handler.py:RPHandler.client_setup", "src/oidcrp/rp_handler.py:RPHandler.init_client", "src/oidcrp/rp_handler.py:RPHandler.do_provider_info", "src/oidcrp/rp_handler.py:RPHandler.do_client_registration", "src/oidcrp/rp_handler.py:RPHandler.do_webfinger", "src/oidcrp/service_context.py:ServiceContext"]}
{"id": "C84", "title": "A login can be begun", "statement": "For a client that is set up, with an endpoint, a redirect URI and a response type to ask for, and any well-formed arguments, begin never fails: it sends nothing, gives a URL for the provider's authorization endpoint and stores the request under its state. This stays so whatever other calls are made on the handler, and a login so begun and answered honestly can be finalized.", "quantifier": "every client configuration meeting the conditions, every argument and every history of calls", "why_tests_cant": "all histories, arguments and configurations: begin must not fail because of what happened before", "anchors": ["src/oidcrp/rp_handler.py:RPHandler.begin", "src/oidcrp/rp_handler.py:RPHandler.init_authorization", "src/oidcrp/oidc/authorization.py:Authorization.oidc_pre_construct", "src/oidcrp/oidc/authorization.py:Authorization.oidc_post_construct", "src/oidcrp/oauth2/add_on/pkce.py:add_code_challenge", "src/oidcrp/oidc/utils.py:pick_redirect_uri"]}
{"id": "C85", "title": "A client can be set up and used", "statement": "For a provider the handler does not know yet, whose metadata is configured or honestly published and supports what the client prefers, and which has an identity for the client configured or registers it, setting up the client succeeds, keeps it with that metadata and identity, and a login can be begun at once, with the configured redirect URI or the callback made at registration.", "quantifier": "every configuration, metadata document and honest provider meeting the conditions, and every handler state", "why_tests_cant": "all configurations and metadata documents; a refusal of a good provider is a denial of service", "anchors": ["src/oidcrp/rp_handler.py:RPHandler.client_setup", "src/oidcrp/rp_handler.py:RPHandler.do_provider_info", "src/oidcrp/rp_handler.py:RPHandler.do_client_registration", "src/oidcrp/oidc/provider_info_discovery.py:ProviderInfoDiscovery.match_preferences", "src/oidcrp/oidc/registration.py:Registration"]}
{"id": "C86", "title": "An honest refresh succeeds, as often as needed", "statement": "If a session has a refresh token, the client can authenticate, and the provider answers as the specifications say, refreshing the session's access token succeeds: one request with that refresh token is sent, the answer with its expiry time is returned and is the session's token response from then on, the new token is the valid access token until it expires, and no other session changes. With a provider that rotates refresh tokens this can be repeated without end; after an honest login whose tokens include a refresh token it is possible.", "quantifier": "every client configuration equipped for it, every session, every honest answer, every number of refreshes", "why_tests_cant": "any number of refreshes; all stores and configurations", "anchors": ["src/oidcrp/rp_handler.py:RPHandler.refresh_access_token", "src/oidcrp/oidc/refresh_access_token.py:RefreshAccessToken", "src/oidcrp/oauth2/refresh_access_token.py:RefreshAccessToken"]}
{"id": "C87", "title": "DPoP proofs can be verified", "statement": "A DPoP proof made by the client is verified by verify_header of its receiver, which restores exactly the parameters signed; an incomplete proof is not made; the proofs sent with token and userinfo requests so verify and name the method, endpoint, key and time of this very request. A proof returned by verify_header was signed with the key it names, and is complete, of type dpop+jwt and signed with an algorithm other than none.", "quantifier": "every proof, key and JWS library that is correct and unforgeable, every request", "why_tests_cant": "all proofs and keys; forged proofs", "anchors": ["src/oidcrp/oauth2/add_on/dpop.py:DPoPProof.create_header", "src/oidcrp/oauth2/add_on/dpop.py:DPoPProof.verify_header", "src/oidcrp/oauth2/add_on/dpop.py:DPoPProof.verify", "src/oidcrp/oauth2/add_on/dpop.py:dpop_header"]}
{"id": "C88", "title": "Threads working on different sessions do not notice each other", "statement": "However the dictionary operations of several threads on one session store are interleaved, if each works on a session of its own with values of its own, every call returns what it would return if its thread were alone, every thread finishes, sessions nobody works on do not change, and the content of the store at the end does not depend on the schedule. Threads working on the same session do not lose each other's updates.", "quantifier": "every number of threads, every list of calls of each, every schedule of their dictionary operations, every initial store", "why_tests_cant": "all interleavings", "anchors": ["src/oidcrp/state_interface.py:StateInterface.store_item", "src/oidcrp/state_interface.py:StateInterface.store_x2state", "src/oidcrp/state_interface.py:StateInterface.remove_state", "src/oidcrp/state_interface.py:StateInterface.create_state"]}
{"id": "C89", "title": "A crash never leaves a half written session", "statement": "Wherever the process crashes, between any two dictionary operations of any number of threads, every session is as after a number of complete calls of its thread, and repeating the interrupted call makes it good. After a crash no value leads to a session that is gone.", "quantifier": "every call, every crash point, every schedule of threads, every initial store", "why_tests_cant": "all crash points", "anchors": ["src/oidcrp/state_interface.py:StateInterface.store_item", "src/oidcrp/state_interface.py:StateInterface.store_x2state", "src/oidcrp/state_interface.py:StateInterface.remove_state", "src/oidcrp/state_interface.py:StateInterface.create_state"]}
{"id": "C90", "title": "A login that failed can be repeated", "statement": "After begin, whatever is done with the session or with others - any number of attempts to finalize it with wrong responses, provider errors, network failures, ID Tokens with another nonce, token fetches and refreshes - as long as it is not cleared and its client not replaced, an honest response to its request can still be finalized and gives the user's claims, the session and the tokens.", "quantifier": "every history of calls after begin, for this session and others, with any answers and failures", "why_tests_cant": "all histories, including every way an attempt can fail half way", "anchors": ["src/oidcrp/rp_handler.py:RPHandler.begin", "src/oidcrp/rp_handler.py:RPHandler.finalize", "src/oidcrp/rp_handler.py:RPHandler.finalize_auth", "src/oidcrp/rp_handler.py:RPHandler.get_tokens"]}
{"id": "C91", "title": "The session store can be kept elsewhere", "statement": "StateInterface can be given any mapping to keep the sessions in: with every mapping that behaves as dictionaries do, every history of calls returns the same, raises the same exceptions and leaves the same content. InMemoryStateDataBase is such a mapping. A store given to the handler keeps the sessions over a restart.", "quantifier": "every mapping (with its own kind of state), every history of calls, every initial content", "why_tests_cant": "all implementations of the mapping and all histories", "anchors": ["src/oidcrp/state_interface.py:StateInterface", "src/oidcrp/state_interface.py:InMemoryStateDataBase", "src/oidcrp/rp_handler.py:RPHandler.__init__"]}
{"id": "C92", "title": "Requests go where they should", "statement": "A request made for a service goes to the endpoint given with the call, else to the endpoint of the service, else to the one in the provider's metadata; with the method given with the call, else the configured one, else that of the service. Nothing else is sent but pushes of authorization requests, to the endpoint for them. Without an endpoint nothing is sent. Metadata is asked for at the well-known location below the issuer.", "quantifier": "every service, every argument, option and keyword, every client", "why_tests_cant": "all services and arguments; several places decide on endpoint and method", "anchors": ["src/oidcrp/service.py:Service.get_request_parameters", "src/oidcrp/service.py:Service.get_endpoint", "src/oidcrp/oauth2/__init__.py:Client.do_request", "src/oidcrp/oauth2/provider_info_discovery.py:ProviderInfoDiscovery.get_endpoint", "src/oidcrp/oidc/read_registration.py:RegistrationRead.get_endpoint"]}
{"id": "C93", "title": "Every provider has redirect URIs of its own", "statement": "generate_request_uris makes one redirect URI below the base URL and the path, which from then on is the client's only one and the one its logins ask for. Clients of different providers get different ones, as do clients with different base URLs below the same path; the callbacks made for registration with different providers have no URL in common. So a response that arrives at a redirect URI can be told to belong to one provider.", "quantifier": "every client, path, base URL and provider, every hash of fixed length that does not collide on the texts hashed", "why_tests_cant": "all pairs of providers", "anchors": ["src/oidcrp/service_context.py:ServiceContext.generate_request_uris", "src/oidcrp/oauth2/utils.py:pick_redirect_uri", "src/oidcrp/oidc/registration.py:create_callbacks", "src/oidcrp/rp_handler.py:RPHandler.init_authorization"]}
{"id": "C94", "title": "A session lives as long as it is refreshed", "statement": "A login is begun among others, attempts to finalize it may fail, an honest response is finalized. From then on calls for other sessions - begun, finalized, refreshed, used, cleared, with any answers and failures - and refreshes of the session may alternate any number of times. Every refresh returns what the provider answered to the refresh token it gave last, after one request with that token; and the token offered for use after calls for other sessions is the one of the last refresh until it expires.", "quantifier": "every history of calls before, between and after, every number of rounds, every provider that honours the refresh tokens it gives", "why_tests_cant": "histories of unbounded length, interleaved with other sessions", "anchors": ["src/oidcrp/rp_handler.py:RPHandler.begin", "src/oidcrp/rp_handler.py:RPHandler.finalize", "src/oidcrp/rp_handler.py:RPHandler.refresh_access_token", "src/oidcrp/rp_handler.py:RPHandler.get_valid_access_token", "src/oidcrp/oidc/refresh_access_token.py:RefreshAccessToken.construct", "src/oidcrp/state_interface.py:StateInterface"]}
{"id": "C95", "title": "Each session behaves as if it were alone", "statement": "After a login was begun, calls for its session - finalize, token, refresh and userinfo requests, looking for a valid token, logout, close - may be made in any order among calls for other sessions of the same handler and the same provider, with any answers and failures. Every one of them returns what it would have returned, and sends the HTTP requests it would have sent, if the other calls had never been made, and in the end the session holds the same information. The others must draw other nonces and states, must not set the provider up anew, and must not extend the scope kept for all sessions of the configuration: a login that names no scope does that once, and then refresh requests of all sessions ask for another scope (witness).", "quantifier": "every history before, every interleaving of calls for the session with calls for others, of any length, all responses and failures (providers whose answers depend on the request, not on earlier requests)", "why_tests_cant": "a comparison of two executions for unboundedly many interleavings", "anchors": ["src/oidcrp/rp_handler.py:RPHandler.begin", "src/oidcrp/rp_handler.py:RPHandler.finalize", "src/oidcrp/rp_handler.py:RPHandler.refresh_access_token", "src/oidcrp/rp_handler.py:RPHandler.get_user_info", "src/oidcrp/rp_handler.py:RPHandler.get_valid_access_token", "src/oidcrp/rp_handler.py:RPHandler.logout", "src/oidcrp/state_interface.py:StateInterface", "src/oidcrp/service_context.py:ServiceContext"]}
{"id": "C96", "title": "A client is put together as configured", "statement": "Making a client succeeds unless an add-on lacks a service it cannot do without (DPoP the token service, pushed authorization requests the authorization service). The client then has the services that are defined, of several with one name the last; the add-ons that are configured are in force with their settings, in whatever order they are listed (PKCE without both services it wants is silently left out); and its requests are made by the methods of the service followed by those of the add-ons, each exactly once. This holds for every client a handler makes and keeps, after every history of calls.", "quantifier": "every list of service definitions and add-ons, every order, every history of calls, all messages and arguments", "why_tests_cant": "all combinations and orders of services and add-ons, all histories", "anchors": ["src/oidcrp/service.py:init_services", "src/oidcrp/service.py:Service.do_pre_construct", "src/oidcrp/service.py:Service.do_post_construct", "src/oidcrp/service.py:Service.get_headers", "src/oidcrp/oauth2/add_on/__init__.py:do_add_ons", "src/oidcrp/oauth2/add_on/pkce.py:add_support", "src/oidcrp/oauth2/add_on/dpop.py:add_support", "src/oidcrp/oauth2/add_on/pushed_authorization.py:add_support", "src/oidcrp/entity.py:Entity.__init__", "src/oidcrp/oauth2/__init__.py:Client.__init__"]}
{"id": "C97", "title": "The provider reads what the client wrote", "statement": "For every service with an endpoint: who decodes the query of a GET or DELETE request, or the form in the body of a POST request, finds each parameter of the message made exactly once with its value - texts unchanged, whatever characters they hold, lists of parameters declared as space separated as one text, other lists one value after the other - and no other parameters. The body of a POST request is written in the format asked for by the caller, else by the configuration, else usual for the service (JSON for registration, else a form), and Content-Type names that format.", "quantifier": "every service, every message, argument, option and client; every text as value", "why_tests_cant": "all values of parameters, all combinations of options; several functions decide on format, content type and encoding", "anchors": ["src/oidcrp/service.py:Service.get_request_parameters", "src/oidcrp/service.py:Service.construct", "src/oidcrp/util.py:get_http_url", "src/oidcrp/util.py:get_http_body", "src/oidcrp/oauth2/__init__.py:Client.do_request"]}
{"id": "C98", "title": "Responses are read in the format they are in", "statement": "A response given to parse_response is read in the format the caller names, else the configured, else the service's. Of a redirect URL or form exactly the part that carries the parameters is read (the query, else the fragment, else the text itself); a JWT is unpacked with the algorithms client and provider agreed on (user info: what the client registered, else what the provider supports) in the name of the client; a text called JSON that is none is tried as a JWT; what can be read in no way raises and changes nothing. The body of a successful answer is read in the format its content type names, the body of a client error likewise (else JSON, else as the caller expects, else as the error itself) and the status is added.", "quantifier": "every response text, format, service, client, answer with its headers and status; every behaviour of the message classes", "why_tests_cant": "all texts, content types and failures of the parsers", "anchors": ["src/oidcrp/service.py:Service.parse_response", "src/oidcrp/service.py:Service.get_urlinfo", "src/oidcrp/service.py:Service._do_jwt", "src/oidcrp/service.py:Service._do_response", "src/oidcrp/oauth2/__init__.py:Client.parse_request_response", "src/oidcrp/util.py:get_deserialization_method", "src/oidcrp/service_context.py:ServiceContext.get_sign_alg"]}
{"id": "C99", "title": "Every request goes out with the handler's HTTP settings", "statement": "A handler made with verify_ssl and HTTP settings has every request of every one of its clients sent with these settings - certificate checks, CA, client certificate, time outs, no redirects unless set - besides the body and headers of the request itself; without settings certificates are verified and redirects not followed. The client sees the answer of the network to exactly that request. This also holds for pushed authorization requests.", "quantifier": "every handler setting, every history of requests of every client, every behaviour of the network", "why_tests_cant": "all settings and all histories of requests, among them those of add-ons", "anchors": ["src/oidcrp/rp_handler.py:RPHandler.__init__", "src/oidcrp/http.py:HTTPLib", "src/oidcrp/oauth2/__init__.py:Client.get_response", "src/oidcrp/oauth2/add_on/pushed_authorization.py:push_authorization", "src/oidcrp/util.py:get_http_params"]}
{"id": "C100", "title": "Configured is what is used, in either spelling", "statement": "A relying party configured by a dictionary has the clients, services, base URL, keys, hash seed and HTTP settings that the dictionary gives under their names in lower or upper case; only what is not given is a default (the seed is drawn, certificates verified). A TLS server context is made exactly of the configured certificate and key (relative to the given directory) and demands of visitors the certificates configured; an unknown demand is refused rather than ignored, and without certificate there is no context.", "quantifier": "every configuration dictionary, directory and behaviour of the TLS library", "why_tests_cant": "all configurations with all spellings, empty and conflicting entries", "anchors": ["src/oidcrp/configure.py:RPConfiguration", "src/oidcrp/util.py:lower_or_upper", "src/oidcrp/util.py:create_context", "src/oidcrp/util.py:set_param"]}
{"id": "C101", "title": "Claims are taken from the source named for them", "statement": "Of user info that is accepted, each claim the provider names an aggregated source for has the value given by the JWT of that very source, if the JWT can be verified; every other claim - also those of sources whose keys are not known and of distributed sources, and whatever else a JWT says - is as the provider gave it; this is what is stored for the session. A source whose JWT cannot be verified for another reason than a missing key, or which lacks a claim it is named for, makes the user info refused; user info all of whose sources are of use is accepted.", "quantifier": "every user info response, number of sources and claims, behaviour of the JWT library, client and session", "why_tests_cant": "all combinations of sources, names and failures", "anchors": ["src/oidcrp/oidc/userinfo.py:UserInfo.post_parse_response"]}
{"id": "C102", "title": "Login URLs and user info requests do not leak secrets", "statement": "The URL a user is sent to for a login, and what is pushed to the provider beforehand, do not depend on any secret of the client: with another client secret, registration, registration access token or DPoP key, with other tokens, ID Tokens and user info kept in its sessions, and with another PKCE verifier that has the same challenge, begin returns the same URL and state (or raises the same) and sends the same. The access token of a user info request is in the Authorization header and nowhere else: with another token the same URL, method and body come out. (Violated by the user info service for GitHub, which sends the token in the query of the URL.)", "quantifier": "every two clients that differ in their secrets only, every request and option of the caller, every stored session, all tokens, every behaviour of the provider; request objects that are not made with the client secret", "why_tests_cant": "a comparison of two executions (non-interference) for all secrets; a test can only search for one given secret in one URL", "anchors": ["src/oidcrp/rp_handler.py:RPHandler.begin", "src/oidcrp/rp_handler.py:RPHandler.init_authorization", "src/oidcrp/service.py:Service.gather_request_args", "src/oidcrp/service.py:Service.get_request_parameters", "src/oidcrp/oauth2/add_on/pkce.py:add_code_challenge", "src/oidcrp/oauth2/add_on/pushed_authorization.py:push_authorization", "src/oidcrp/oidc/userinfo.py:UserInfo", "src/oidcrp/client_auth.py:BearerHeader", "src/oidcrp/provider/github.py:UserInfo"]}
{"id": "C103", "title": "Whose keys a client holds", "statement": "Whatever calls are made of a handler, the key jar of each of its clients holds exactly: the handler's own keys, the keys named in the client's configuration (secret, key files, key sets with their owner, files of the provider), the keys in the metadata it fetched, filed under the issuer the client takes its provider for, and the secret it got when it registered, filed under '' and the client's own name (and perhaps a copy of its own keys under that name). So a client has no keys of anybody but its provider and itself unless their owner is configured: nothing that one provider sends becomes a key of another one, or reaches the jar of the client of another provider. (Violated: keys at the jwks_uri of configured metadata are not loaded; a provider that registers a client under the name of another issuer gets its secret filed as that issuer's key.)", "quantifier": "all histories of API calls on a new handler, all configurations, all behaviours of all providers, every client and every key", "why_tests_cant": "an invariant of the key jars of all clients over unbounded histories with arbitrary answers of the providers", "anchors": ["src/oidcrp/oauth2/provider_info_discovery.py:ProviderInfoDiscovery._update_service_context", "src/oidcrp/oidc/registration.py:Registration.update_service_context", "src/oidcrp/service_context.py:ServiceContext.__init__", "src/oidcrp/service_context.py:ServiceContext.import_keys", "src/oidcrp/rp_handler.py:RPHandler.do_provider_info", "src/oidcrp/rp_handler.py:RPHandler.init_client"]}
{"id": "C104", "title": "A saved client goes on in another process", "statement": "Two processes are started with the same configuration and make any calls. The service context of a client of the first is dumped and loaded into the client the second has (or has just made) of the same part of the configuration. Then that client has the provider, identity, keys, behaviour and sessions of the first, whatever it had before, and every call on it gives what it would have given in the first process: a login begun there is finished here. An attribute left out of the dump keeps the value it had. (Violated: sessions the second client had are gone; requests still go to the endpoints it had found itself, even if the loaded metadata names others; the attribute with the registration access token is not saved.)", "quantifier": "every configuration, every two histories of API calls of two processes, every point of the dump, every call made afterwards, every behaviour of the providers", "why_tests_cant": "a round trip for all reachable client states, at every point of a history", "anchors": ["src/oidcrp/service_context.py:ServiceContext.parameter", "src/oidcrp/service_context.py:ServiceContext.__init__", "src/oidcrp/state_interface.py:StateInterface.parameter", "src/oidcrp/service.py:Service.get_endpoint", "src/oidcrp/rp_handler.py:RPHandler.init_client"]}
{"id": "C105", "title": "A login is only completed if it was begun here", "statement": "Whatever calls were made before, whatever the providers and the browsers sent: when finalize completes a login, exactly one earlier begin drew the session value it returns, that begin was for the client of the very issuer finalize was called for, and (if the begin returned a URL, with a nonce drawn by the library) the ID Token that is returned carries exactly the nonce of that begin. A session value that no begin drew is unknown: every call with it raises and changes nothing.", "quantifier": "every configuration, every history of API calls since the handler was made (also cleared sessions and clients set up anew), every response of browser and provider", "why_tests_cant": "a correspondence between two points of an arbitrary history, with arbitrary responses in between", "anchors": ["src/oidcrp/rp_handler.py:RPHandler.begin", "src/oidcrp/rp_handler.py:RPHandler.finalize", "src/oidcrp/rp_handler.py:RPHandler.finalize_auth", "src/oidcrp/rp_handler.py:RPHandler.get_access_and_id_token", "src/oidcrp/rp_handler.py:RPHandler.state2issuer", "src/oidcrp/oidc/access_token.py:AccessToken.update_service_context", "src/oidcrp/oidc/authorization.py:Authorization.post_parse_response"]}
{"id": "C106", "title": "Random values", "statement": "State values, nonces and PKCE verifiers have exactly the length asked for and consist of letters and digits only, so they are written into URLs as they are; every such value can occur, each from exactly one sequence of draws that are not thrown away. (Full claim, violated: who sees the values handed out cannot know the next ones. They come from Python's `random`, because `import SystemRandom` always fails: after 19968 numbers in a row every later state, nonce and verifier of the process is a fixed function of those seen.)", "quantifier": "every source of randomness, every length, every seed of the generator and every point of its sequence", "why_tests_cant": "holds for every seed and position; tests sample a few strings and cannot tell a predictable generator from a good one", "anchors": ["src/oidcrp/util.py:rndstr", "src/oidcrp/util.py:unreserved", "src/oidcrp/defaults.py:BASECHR", "src/oidcrp/rp_handler.py:RPHandler.init_authorization", "src/oidcrp/oauth2/add_on/pkce.py:add_code_challenge"]}
{"id": "C107", "title": "Which login a callback finishes", "statement": "In the example web application, every request is at most one call of the library. If the callback shows a browser that it is logged in, then the address called is a configured one of a client; the state it was called with was drawn for exactly one earlier request to begin a login, for the provider of just that client; and the ID Token shown has the nonce drawn then. A response at one provider's address never finishes a login begun with another. (Full claim, violated: every login begun can be finished at the address sent to the provider. Addresses the library generates, for providers without configured ones, are not recognised: the browser is told that the provider is unknown.)", "quantifier": "every history of requests of any number of browsers and providers, every configuration, every response", "why_tests_cant": "holds for every interleaving of browsers, including forged and replayed responses; tests run single logins", "anchors": ["example/flask_rp/views.py:rp", "example/flask_rp/views.py:finalize", "example/flask_rp/views.py:get_op_identifier_by_cb_uri", "example/flask_rp/views.py:get_rp", "example/flask_rp/views.py:repost_fragment", "src/oidcrp/rp_handler.py:RPHandler.begin", "src/oidcrp/rp_handler.py:RPHandler.finalize"]}
{"id": "C108", "title": "Whose login it is", "statement": "In the example web application, a browser is logged in, and can log out, only with a login that it began itself. (Violated: the browser's session is not compared at the callback, so a browser is logged in with the response to another's login (login CSRF), and, having named another's state in a callback that fails, is sent to the provider with the other's ID Token to log out. It holds that a logout is always for a session a callback of the same browser named before.)", "quantifier": "every history of requests of any number of browsers", "why_tests_cant": "holds or fails over interleavings of several browsers, which tests with one do not have", "anchors": ["example/flask_rp/views.py:rp", "example/flask_rp/views.py:finalize", "example/flask_rp/views.py:logout", "src/oidcrp/rp_handler.py:RPHandler.logout"]}
{"id": "C109", "title": "Logout by the provider", "statement": "In the example web application, a logout the provider asks for, by the back or the front channel, and that the library verifies, ends the session it names. (Violated for every such request: it is never answered with OK, and no session of a client or of a browser changes. A body that is a form, as the specification of back-channel logout has it, is not looked at.)", "quantifier": "every request of a provider, every state of the site", "why_tests_cant": "the failure holds for every request and state, including verified ones", "anchors": ["example/flask_rp/views.py:backchannel_logout", "example/flask_rp/views.py:frontchannel_logout", "src/oidcrp/rp_handler.py:backchannel_logout"]}
{"id": "C110", "title": "An honest login at the site", "statement": "In the example web application, a browser that was sent to a provider to log in is logged in when it comes to the provider's own callback address with an honest response, with the claims and tokens of the user, whatever requests were made before and meanwhile, by this and other browsers and by providers: logins begun, callbacks with any responses to this and other sessions, logouts asked for. (As long as random values do not repeat, nobody has the client set up anew, and the address is a configured one of one client only.)", "quantifier": "every history of requests before and between, every configuration, every honest provider", "why_tests_cant": "holds for every interleaving of requests of any number of browsers, hostile ones included; tests run single logins", "anchors": ["example/flask_rp/views.py:rp", "example/flask_rp/views.py:authz_cb", "example/flask_rp/views.py:finalize", "example/flask_rp/views.py:get_op_identifier_by_cb_uri", "src/oidcrp/rp_handler.py:RPHandler.begin", "src/oidcrp/rp_handler.py:RPHandler.finalize"]}
{"id": "C111", "title": "Another login from a session", "statement": "`init_authorization(state=s)` does exactly what `begin` does at the provider of session `s`: the same URL and state or the same failure, and the same handler afterwards. The old session is not overwritten: it still belongs to its provider and its information is what it was, while the new state is another session at the same provider. In any history that mixes the calls of the interface with the single steps `do_provider_info`, `do_client_registration` and `init_authorization` for sessions, a session stays with its provider, and its information is not changed by steps that do not concern it, nor by any of the single steps, even when they name it.", "quantifier": "every history of calls and single steps, every session, every answer and failure", "why_tests_cant": "holds for every mixture of steps of any number of sessions; tests take one step from one state", "anchors": ["src/oidcrp/rp_handler.py:RPHandler.init_authorization", "src/oidcrp/rp_handler.py:RPHandler.do_provider_info", "src/oidcrp/rp_handler.py:RPHandler.do_client_registration", "src/oidcrp/rp_handler.py:RPHandler.get_client_from_session_key", "src/oidcrp/rp_handler.py:RPHandler.begin"]}
{"id": "C112", "title": "Metadata and registration asked for again", "statement": "Asked for again for a session, `do_client_registration` sends nothing if the client has a name, and changes nothing but the handler's note of the issuer; `do_provider_info` answers with the issuer the metadata names, and loads no keys if the metadata name none. (Full claims, violated: `do_provider_info` 'will overwrite previously saved provider metadata': nothing is ever sent and the metadata stay what they are. Keys are loaded from local files only if the configuration names them: metadata that were fetched are taken for configured ones the second time, and a file the provider names in them is read.)", "quantifier": "every session, every state of the handler, every metadata, all circumstances", "why_tests_cant": "holds in every state in which a client is set up, whatever the provider would answer now", "anchors": ["src/oidcrp/rp_handler.py:RPHandler.do_provider_info", "src/oidcrp/rp_handler.py:RPHandler.do_client_registration", "doc/source/rp_handler.rst"]}
{"id": "C113", "title": "Every response type can be used to log in", "statement": "A session waits for the response to its authorization request, and the provider is honest. For `id_token` finalize sends nothing and returns the user's claims of the ID Token; for `token` and `code token` it asks for the user's claims with the access token of the response and returns both; with `collect_tokens` hybrid flows return the access token and ID Token of the token endpoint. In each case the subject leads to the session. (`code`, `code id_token`, `id_token token`, `code id_token token`: C81. Full claim, violated: `token` and `code token` cannot be finalized at a client without userinfo service, however honest the provider; `collect_tokens` with `id_token token` always fails.)", "quantifier": "every client, session, provider answer, response type and option", "why_tests_cant": "every combination of response type, option and answer; the failing combinations look like the working ones", "anchors": ["src/oidcrp/rp_handler.py:RPHandler.finalize", "src/oidcrp/rp_handler.py:RPHandler.get_access_and_id_token", "src/oidcrp/rp_handler.py:RPHandler.get_tokens"]}
{"id": "C114", "title": "A login is about one user", "statement": "If finalize completes a login with an ID Token, the user information it returns has no subject or that of the ID Token, and that subject leads to the session - unless the provider refers to other sources of claims. (Full claim, violated: in the hybrid flow the subject of the ID Token in the response is compared with nothing; the ID Token that comes with refreshed tokens is compared with nothing, so a refresh can change the user of a session; see also C25.)", "quantifier": "every flow, every response, every answer of the token and userinfo endpoints, every state of the store in which the session waits", "why_tests_cant": "universal over what a dishonest or confused provider answers at three places", "anchors": ["src/oidcrp/rp_handler.py:RPHandler.finalize", "src/oidcrp/rp_handler.py:RPHandler.refresh_access_token", "src/oidcrp/oidc/userinfo.py:UserInfo.post_parse_response", "src/oidcrp/oidc/refresh_access_token.py:RefreshAccessToken"]}
{"id": "C115", "title": "Logging in with an OAuth2 server", "statement": "At a server that issues access tokens but no ID Tokens and has an address for the user's claims (documented example: GitHub) a code login succeeds: finalize fetches the token and the claims and returns them, with the session and no ID Token.", "quantifier": "every client, session, answer of the server", "why_tests_cant": "universal over servers and their answers; only a few providers are simulated in tests", "anchors": ["src/oidcrp/rp_handler.py:RPHandler.finalize", "src/oidcrp/rp_handler.py:RPHandler.get_access_and_id_token", "src/oidcrp/provider/github.py:UserInfo", "src/oidcrp/provider/linkedin.py:UserSchema", "doc/source/rp_handler.rst:526-600"]}
{"id": "C116", "title": "User information is what the provider said", "statement": "What get_user_info (and so finalize) returns as user information is the verified body of a successful answer to the request made for it, and is kept with the session; anything else the provider answers is an exception.", "quantifier": "every answer (status, headers, body), every session", "why_tests_cant": "all statuses and bodies", "anchors": ["src/oidcrp/rp_handler.py:RPHandler.get_user_info", "src/oidcrp/rp_handler.py:RPHandler.finalize", "src/oidcrp/oauth2/__init__.py:Client.get_response", "src/oidcrp/oauth2/__init__.py:Client.service_request"]}
{"id": "C117", "title": "How long cookies live", "statement": "A cookie of a CookieDealer is sent back by a browser, over encrypted connections only and hidden from scripts, until its lifetime (given or the dealer's) has passed and is worth nothing after that; when the browser receives the result of delete_cookie, it no longer sends any cookie of that name made for the same server and sends all others as before. A dealer does not work with an empty key, has a seed, and keeps the seed its server had.", "quantifier": "every server, value, lifetime, time, and set of cookies of the browser", "why_tests_cant": "times and cookie jars are unbounded", "anchors": ["src/oidcrp/cookie.py:make_cookie", "src/oidcrp/cookie.py:CookieDealer"]}
{"id": "C118", "title": "Requests are not in the log", "statement": "What the library writes to the log at level INFO or above while it makes a request to a provider - exchanges a code, refreshes, asks for user information - does not contain, and does not depend on, what is sent: no client secret, code, token or assertion can be seen there.", "quantifier": "every service, request, answer, client, and history of requests", "why_tests_cant": "noninterference compares two runs with different secrets, for all secrets and answers", "anchors": ["src/oidcrp/http.py:HTTPLib.__call__", "src/oidcrp/oauth2/__init__.py:Client.do_request", "src/oidcrp/oauth2/__init__.py:Client.service_request", "src/oidcrp/oauth2/__init__.py:Client.get_response", "src/oidcrp/oauth2/__init__.py:Client.parse_request_response", "src/oidcrp/util.py:sanitize", "src/oidcrp/rp_handler.py:RPHandler.get_tokens", "src/oidcrp/rp_handler.py:RPHandler.refresh_access_token"]}
{"id": "C119", "title": "The level of the log", "statement": "configure_logging gives the root logger the level asked for: DEBUG with debug, else that of the dictionary or file given, else INFO, whatever was configured before; and it leaves the dictionaries of its callers alone.", "quantifier": "every history of calls", "why_tests_cant": "all histories of calls", "anchors": ["src/oidcrp/logging.py:configure_logging"]}
{"id": "C120", "title": "DPoP: tokens bound to one key", "statement": "At a client with DPoP that can bind its tokens, every token request (with a code) and every userinfo request, in any history of calls, has a proof of possession for its own method and URL, made at the time of the call; all proofs are made with one key, which the client keeps. (Full claim, violated: requests that use or renew a bound token prove possession. Refresh requests have no proof; and the token is presented with the scheme Bearer instead of DPoP.)", "quantifier": "every history of calls at a handler, every client, answer and failure", "why_tests_cant": "one key over all requests of all sessions is a claim about histories of any length", "anchors": ["src/oidcrp/oauth2/add_on/dpop.py:dpop_header", "src/oidcrp/oauth2/add_on/dpop.py:add_support", "src/oidcrp/service.py:Service.get_headers", "src/oidcrp/client_auth.py:BearerHeader", "src/oidcrp/rp_handler.py:RPHandler.finalize", "src/oidcrp/rp_handler.py:RPHandler.refresh_access_token"]}
{"id": "C121", "title": "A login with DPoP", "statement": "At a client with DPoP, whether it has a key or must make one, finalize completes an honest login with a code as without DPoP, with exactly two requests; both have proofs of possession of the same key for their own method and URL, and the client has that key afterwards.", "quantifier": "every client, session, response and honest answers of the provider", "why_tests_cant": "universal over clients, sessions and answers; that the proofs are for one key in every case is not visible in one run", "anchors": ["src/oidcrp/oauth2/add_on/dpop.py:dpop_header", "src/oidcrp/oauth2/add_on/dpop.py:add_support", "src/oidcrp/rp_handler.py:RPHandler.finalize", "src/oidcrp/rp_handler.py:RPHandler.get_access_and_id_token", "src/oidcrp/rp_handler.py:RPHandler.get_user_info"]}
{"id": "C122", "title": "Logins begun at the same time", "statement": "Threads that begin logins, or make other calls, at one handler do not disturb each other. With providers the handler has clients for: the calls that are finished were in effect made one after the other in some order, each with the result it gave. With any providers: a login begun is there as long as no other thread has put in place a client of its own under the same name meanwhile. (Full claim, violated: every login begun by some thread can be finished, at the provider the user chose. Two threads at the first use of a provider: the session of one is lost and its answer refused. Providers without a configuration of their own share one, and the issuer is written into it: a user is sent to the provider another user chose.)", "quantifier": "every number of threads, every interleaving of their steps, every handler, provider and answer", "why_tests_cant": "a schedule that loses a login is rare in a test; the claim is about all interleavings", "anchors": ["src/oidcrp/rp_handler.py:RPHandler.begin", "src/oidcrp/rp_handler.py:RPHandler.client_setup", "src/oidcrp/rp_handler.py:RPHandler.init_client", "src/oidcrp/rp_handler.py:RPHandler.pick_config", "src/oidcrp/rp_handler.py:RPHandler.do_client_registration", "src/oidcrp/rp_handler.py:RPHandler.finalize"]}
{"id": "C123", "title": "What a call asks of the provider", "statement": "A call sends the provider no more than what it is there for, in this order and each at most once: finalize the token request and the userinfo request, get_tokens the token request, refresh_access_token the refresh request, get_user_info the userinfo request, begin at a client in place the pushed authorization request; the other calls (logout, close, has_active_authentication, get_valid_access_token, backchannel_logout) send nothing. A client begin has to make sends at most one WebFinger, one metadata and one registration request besides. Over a history there are never more requests of a kind than calls that are there for it, whatever the provider answers and however the calls fail: no call retries by itself, an authorization code or refresh token is not sent twice by one call.", "quantifier": "every call, every history of calls of any length, every sequence of answers and failures, every provider", "why_tests_cant": "a test sees the requests of one exchange; a second request sent after some failure, or over a long history, does not show", "anchors": ["src/oidcrp/rp_handler.py:RPHandler.finalize", "src/oidcrp/rp_handler.py:RPHandler.begin", "src/oidcrp/rp_handler.py:RPHandler.get_tokens", "src/oidcrp/rp_handler.py:RPHandler.refresh_access_token", "src/oidcrp/oauth2/__init__.py:Client.get_response"]}
{"id": "C124", "title": "Calls made at the same time", "statement": "Threads that work at the client of one provider, each on a session of its own (finalize, get_tokens, refresh_access_token, get_user_info, has_active_authentication, get_valid_access_token, logout), do not disturb each other: however their calls are interleaved, each call returns or raises what it would if the thread were alone, the same requests are sent, the record of the session ends up the same, and every thread finishes. (Full claim, violated if DPoP is in use and no proof was made yet: two threads make a key each, and a token bound to one key is used with a proof by the other.)", "quantifier": "every number of threads, every list of calls per thread, every interleaving of their steps, every answer of the provider", "why_tests_cant": "the claim is about all interleavings of any number of calls; a test runs a few schedules of the scheduler", "anchors": ["src/oidcrp/rp_handler.py:RPHandler.finalize", "src/oidcrp/rp_handler.py:RPHandler.refresh_access_token", "src/oidcrp/rp_handler.py:RPHandler.get_user_info", "src/oidcrp/rp_handler.py:RPHandler.logout", "src/oidcrp/oauth2/__init__.py:Client.get_response", "src/oidcrp/oauth2/add_on/dpop.py:dpop_header"]}
{"id": "C125", "title": "Whole logins at the same time", "statement": "Threads that log users in at one provider from the start (begin, then finalize and whatever calls follow for the session) do not disturb each other, nor threads at work on sessions already begun: however the calls are interleaved, begin returns the URL and session value it would return alone, each later call returns or raises what it would if the thread were alone, the same requests are sent, the record of the session ends up the same, and every thread finishes. (Full claim, violated by first DPoP proofs, see C124.)", "quantifier": "every number of threads, every list of calls per thread, every interleaving of their steps, every answer of the provider, every history before", "why_tests_cant": "the claim is about all interleavings of any number of logins; a test runs a few schedules of the scheduler", "anchors": ["src/oidcrp/rp_handler.py:RPHandler.begin", "src/oidcrp/rp_handler.py:RPHandler.init_authorization", "src/oidcrp/rp_handler.py:RPHandler.finalize", "src/oidcrp/oidc/authorization.py:Authorization", "src/oidcrp/oauth2/add_on/pkce.py:add_code_challenge"]}
{"id": "C126", "title": "Calls of one handler at the same time, at any number of providers", "statement": "An application that uses one handler from many threads gets from every call what it would get with that thread alone: threads that log users in or use their sessions, at the same or at different providers that are set up, do not disturb each other, the look-up of the session among the clients included; every call returns or raises what it would alone, the same requests are sent to the provider, the record of the session ends up the same, and every thread finishes. (Full claim, violated while a provider is being set up: a call that is looking for its session then raises RuntimeError.)", "quantifier": "every number of threads and providers, every list of calls per thread, every interleaving of their steps, every answer of the providers, every history before", "why_tests_cant": "the claim is about all interleavings of any number of threads; a test runs a few schedules of the scheduler", "anchors": ["src/oidcrp/rp_handler.py:RPHandler.state2issuer", "src/oidcrp/rp_handler.py:RPHandler.get_client_from_session_key", "src/oidcrp/rp_handler.py:RPHandler.client_setup", "src/oidcrp/rp_handler.py:RPHandler.begin", "src/oidcrp/rp_handler.py:RPHandler.finalize"]}
{"id": "C127", "title": "A handler made with the defaults", "statement": "A handler made with a base URL and nothing else can be relied on as the documentation says: whatever happens in its process, every client it keeps has the default services, uses PKCE with S256 and publishes its keys at static/jwks.json; every login it starts sends the S256 challenge of a verifier, and the tokens of that login are asked for with that verifier only; and several handlers in one process do not affect each other: each keeps the clients and returns the results it would if it were the only one. (Full claim, violated for logins started by user identifier: the handlers share one dictionary, into which the issuer is written.)", "quantifier": "every list of handlers made and calls made of them in one process, every argument of the constructor, every answer of the providers, every session", "why_tests_cant": "the shared default dictionary makes the outcome depend on what other handlers of the process did before; a test makes one handler per process or resets it", "anchors": ["src/oidcrp/rp_handler.py:RPHandler.__init__", "src/oidcrp/rp_handler.py:RPHandler.init_client", "src/oidcrp/defaults.py:DEFAULT_CLIENT_CONFIGS", "src/oidcrp/oauth2/add_on/pkce.py:add_support"]}
{"id": "C128", "title": "The addresses of a client when its handler is made anew", "statement": "A handler that is made again with the same arguments (the application is restarted, or another instance of it started) uses the same addresses and asks for the same registration: with the same seed, whatever the time and the random values, the client of a provider that publishes the same metadata gets the same redirect and logout addresses, the same negotiated behaviour, and sends the same registration request, to the letter; it goes on with the sessions given as state_db. (Full claim, violated unless the seed is in the configuration of the client: the hash_seed and state_db given to the handler are never used.)", "quantifier": "every configuration, all times and random values, every provider and its answers, all arguments of the constructor", "why_tests_cant": "the random values and the time differ between the two runs; a test compares at most two of them and the seed is usually not given", "anchors": ["src/oidcrp/rp_handler.py:RPHandler.__init__", "src/oidcrp/rp_handler.py:RPHandler.client_setup", "src/oidcrp/service_context.py:ServiceContext.__init__", "src/oidcrp/oidc/registration.py:create_callbacks", "src/oidcrp/oidc/registration.py:add_callbacks"]}
