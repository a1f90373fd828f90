{
 "claims": [
  {
   "property": "C01",
   "status": "proved",
   "theorems": [
    "Verif.Props.C01_create_isolated",
    "Verif.Props.C01_store_isolated",
    "Verif.Props.C01_bind_isolated"
   ],
   "note": ""
  },
  {
   "property": "C02",
   "status": "proved",
   "theorems": [
    "Verif.Props.C02_item_read_back",
    "Verif.Props.C02_issuer_read_back",
    "Verif.Props.C02_store_then_read",
    "Verif.Props.C02_unknown_session"
   ],
   "note": ""
  },
  {
   "property": "C03",
   "status": "proved",
   "theorems": [
    "Verif.Props.C03_lookup_sound",
    "Verif.Props.C03_lookup_last_bound"
   ],
   "note": ""
  },
  {
   "property": "C04",
   "status": "proved",
   "theorems": [
    "Verif.Props.C04_indexes_independent",
    "Verif.Props.C04_bound_resolves"
   ],
   "note": ""
  },
  {
   "property": "C05",
   "status": "partial",
   "theorems": [
    "Verif.Props.C05_reserved_keys_violated",
    "Verif.Props.C05_reserved_key_overwritten",
    "Verif.Props.C05_partial"
   ],
   "note": "Violated by the code: only \"__\" wrapped keys are refused (witness theorems). Proved: exact set of refused keys."
  },
  {
   "property": "C06",
   "status": "partial",
   "theorems": [
    "Verif.Props.C06_remove_erases_violated",
    "Verif.Props.C06_record_gone",
    "Verif.Props.C06_partial"
   ],
   "note": "Violated: rebinding leaves the older index entry behind (witness). Proved: the record is always gone; no value resolves if no kind was rebound."
  },
  {
   "property": "C07",
   "status": "partial",
   "theorems": [
    "Verif.Props.C07_remove_unknown",
    "Verif.Props.C07_remove_succeeds_violated",
    "Verif.Props.C07_shared_subject_violated",
    "Verif.Props.C07_partial"
   ],
   "note": "Violated: TypeError for a session nothing is bound to, KeyError for a shared subject (witnesses). Proved: sufficient condition over histories; unknown session."
  },
  {
   "property": "C08",
   "status": "partial",
   "theorems": [
    "Verif.Props.C08_remove_isolated_violated",
    "Verif.Props.C08_partial"
   ],
   "note": "Violated: shared subject (witness). Proved: records of others and values never bound to the removed session are unchanged."
  },
  {
   "property": "C09",
   "status": "proved",
   "theorems": [
    "Verif.Props.C09_store_refines_spec"
   ],
   "note": ""
  },
  {
   "property": "C10",
   "status": "proved",
   "theorems": [
    "Verif.Props.C10_generated_keys_are_safe",
    "Verif.Props.C10_generated_key_ne_index"
   ],
   "note": ""
  },
  {
   "property": "C11",
   "status": "partial",
   "theorems": [
    "Verif.Props.C11_session_resolves_partial",
    "Verif.Props.C11_one_name",
    "Verif.Props.C11_misnamed_violated"
   ],
   "note": "Violated if configuration and configured metadata name the issuer differently (witness). Proved: the session is resolved after every history of calls in which the client is not set up anew; in general if every provider has one name."
  },
  {
   "property": "C12",
   "status": "partial",
   "theorems": [
    "Verif.Props.C12_begin_violated",
    "Verif.Props.C12_alias_violated",
    "Verif.Props.C12_nobody_named",
    "Verif.Props.C12_begins_keep_partial"
   ],
   "note": "Violated: begin by user identifier or configuration alias replaces the client and loses sessions in flight (witnesses). Proved: begins that name the issuer keep all sessions."
  },
  {
   "property": "C13",
   "status": "proved",
   "theorems": [
    "Verif.Props.C13_only_for_its_issuer",
    "Verif.Props.C13_other_clients",
    "Verif.Props.C13_other_issuer_refused"
   ],
   "note": "For every response, store and handler."
  },
  {
   "property": "C14",
   "status": "proved",
   "theorems": [
    "Verif.Props.C14_unknown_state_refused",
    "Verif.Props.C14_cleared_is_unknown"
   ],
   "note": ""
  },
  {
   "property": "C15",
   "status": "partial",
   "theorems": [
    "Verif.Props.C15_error_response"
   ],
   "note": "An error response without state raises KeyError instead of being reported. Proved: no session changes and nothing is sent, state and error are returned when there is a state."
  },
  {
   "property": "C16",
   "status": "proved",
   "theorems": [
    "Verif.Props.C16_same_nonce",
    "Verif.Props.C16_other_nonce_refused"
   ],
   "note": ""
  },
  {
   "property": "C17",
   "status": "proved",
   "theorems": [
    "Verif.Props.C17_refused",
    "Verif.Props.C17_other_session_refused",
    "Verif.Props.C17_get_tokens"
   ],
   "note": ""
  },
  {
   "property": "C18",
   "status": "partial",
   "theorems": [
    "Verif.Props.C18_replay_violated",
    "Verif.Props.C18_after_clear_partial"
   ],
   "note": "Violated: nothing remembers that a response was used (witness). Proved: after clear_session a replay is refused without effect."
  },
  {
   "property": "C19",
   "status": "proved",
   "theorems": [
    "Verif.Props.C19_sources"
   ],
   "note": "For every response type set, response and both settings of collect_tokens."
  },
  {
   "property": "C20",
   "status": "proved",
   "theorems": [
    "Verif.Props.C20_finalize",
    "Verif.Props.C20_token_request"
   ],
   "note": "For every store and session, for get_tokens and while finalizing."
  },
  {
   "property": "C21",
   "status": "proved",
   "theorems": [
    "Verif.Props.C21_verifier_matches",
    "Verif.Props.C21_unsupported_refused",
    "Verif.Props.C21_verifier_not_sent"
   ],
   "note": "For every history of calls between begin and the token request in which the client is not set up anew; hash abstract."
  },
  {
   "property": "C22",
   "status": "proved",
   "theorems": [
    "Verif.Props.C22_returned_token",
    "Verif.Props.C22_first_unlimited_wins",
    "Verif.Props.C22_refused_iff_all_expired"
   ],
   "note": ""
  },
  {
   "property": "C23",
   "status": "proved",
   "theorems": [
    "Verif.Props.C23_active_iff",
    "Verif.Props.C23_unknown_session"
   ],
   "note": ""
  },
  {
   "property": "C24",
   "status": "partial",
   "theorems": [
    "Verif.Props.C24_new_token_used_partial",
    "Verif.Props.C24_lost_violated"
   ],
   "note": "Violated: a refresh response without refresh token loses the stored one (witness). Proved: a new refresh token is the one used next."
  },
  {
   "property": "C25",
   "status": "partial",
   "theorems": [
    "Verif.Props.C25_same_subject_partial",
    "Verif.Props.C25_other_subject_refused",
    "Verif.Props.C25_aggregated_violated"
   ],
   "note": "Violated: aggregated claims can replace sub after the check (witness). Proved: acceptance and refusal for every response without an aggregated sub."
  },
  {
   "property": "C26",
   "status": "partial",
   "theorems": [
    "Verif.Props.C26_given_token_partial",
    "Verif.Props.C26_service_uses_latest_partial",
    "Verif.Props.C26_without_token_violated"
   ],
   "note": "Violated for every client and store: without an access token get_user_info raises. Proved: a given token is sent; the userinfo service alone uses the latest stored one."
  },
  {
   "property": "C27",
   "status": "proved",
   "theorems": [
    "Verif.Props.C27_session_of_verified_token",
    "Verif.Props.C27_last_bound_session",
    "Verif.Props.C27_just_bound",
    "Verif.Props.C27_unverified_refused",
    "Verif.Props.C27_nothing_changed"
   ],
   "note": ""
  },
  {
   "property": "C28",
   "status": "proved",
   "theorems": [
    "Verif.Props.C28_logout"
   ],
   "note": "For every store, session and configuration; the request parameters are those of oidcmsg EndSessionRequest."
  },
  {
   "property": "C29",
   "status": "partial",
   "theorems": [
    "Verif.Props.C29_cleared_partial",
    "Verif.Props.C29_unknown",
    "Verif.Props.C29_other_subject_violated"
   ],
   "note": "Violated: clearing a session can make another session of the same user unfindable by subject (witness). Proved: state unresolvable, late responses refused, all other records and resolutions unchanged."
  },
  {
   "property": "C30",
   "status": "proved",
   "theorems": [
    "Verif.Props.C30_header_decodes",
    "Verif.Props.C30_other_headers",
    "Verif.Props.C30_header_injective",
    "Verif.Props.C30_request"
   ],
   "note": ""
  },
  {
   "property": "C31",
   "status": "partial",
   "theorems": [
    "Verif.Props.C31_standard_iff_partial",
    "Verif.Props.C31_violated_tilde"
   ],
   "note": "Violated by the code: urlsafe base64 differs from RFC 7617 base64 (witness with a tilde). Proved: exactly when the two agree."
  },
  {
   "property": "C32",
   "status": "proved",
   "theorems": [
    "Verif.Props.C32_post",
    "Verif.Props.C32_post_fails_iff"
   ],
   "note": ""
  },
  {
   "property": "C33",
   "status": "proved",
   "theorems": [
    "Verif.Props.C33_request",
    "Verif.Props.C33_new_assertion",
    "Verif.Props.C33_assertion_type"
   ],
   "note": ""
  },
  {
   "property": "C34",
   "status": "proved",
   "theorems": [
    "Verif.Props.C34_bearer_header",
    "Verif.Props.C34_receiver",
    "Verif.Props.C34_no_token",
    "Verif.Props.C34_bearer_body"
   ],
   "note": ""
  },
  {
   "property": "C35",
   "status": "proved",
   "theorems": [
    "Verif.Props.C35_precedence",
    "Verif.Props.C35_stored",
    "Verif.Props.C35_stored_missing"
   ],
   "note": ""
  },
  {
   "property": "C36",
   "status": "partial",
   "theorems": [
    "Verif.Props.C36_valid_iff",
    "Verif.Props.C36_violated_expiry_ignored"
   ],
   "note": "Violated: no authentication method ever consults the expiry (proved for every method and time). Proved: what the unused check decides."
  },
  {
   "property": "C37",
   "status": "partial",
   "theorems": [
    "Verif.Props.C37_other_endpoint_partial",
    "Verif.Props.C37_method_names",
    "Verif.Props.C37_no_audience",
    "Verif.Props.C37_token_endpoint_registered",
    "Verif.Props.C37_token_endpoint_unregistered",
    "Verif.Props.C37_first_usable",
    "Verif.Props.C37_violated_token_endpoint"
   ],
   "note": "Violated at the token endpoint, where registration and discovery override the explicit algorithm (witness). Proved: all branches, audience, error without audience."
  },
  {
   "property": "C38",
   "status": "proved",
   "theorems": [
    "Verif.Props.C38_precedence",
    "Verif.Props.C38_message",
    "Verif.Props.C38_refresh_request"
   ],
   "note": ""
  },
  {
   "property": "C39",
   "status": "partial",
   "theorems": [
    "Verif.Props.C39_returned_is_verified",
    "Verif.Props.C39_failed_verification_raises",
    "Verif.Props.C39_error_returned",
    "Verif.Props.C39_jose_violated"
   ],
   "note": "Violated: a jose/jws/jwe formatted response text is returned unverified (witness). Proved for every other response and format."
  },
  {
   "property": "C40",
   "status": "partial",
   "theorems": [
    "Verif.Props.C40_no_answer",
    "Verif.Props.C40_failure_raises",
    "Verif.Props.C40_client_error_partial",
    "Verif.Props.C40_stored_only_if",
    "Verif.Props.C40_client_error_violated"
   ],
   "note": "Violated: a 4xx answer whose body parses as a non-error is stored as success (witness). Proved for 5xx, no answer, 4xx otherwise."
  },
  {
   "property": "C41",
   "status": "partial",
   "theorems": [
    "Verif.Props.C41_get_url",
    "Verif.Props.C41_get_url_text",
    "Verif.Props.C41_get_url_query",
    "Verif.Props.C41_request_parameter_kept_partial",
    "Verif.Props.C41_violated_query_overrides_request",
    "Verif.Props.C41_empty_request",
    "Verif.Props.C41_other_method_url",
    "Verif.Props.C41_body_urlencoded",
    "Verif.Props.C41_body_json_jose",
    "Verif.Props.C41_body_refused"
   ],
   "note": "Violated: parameters in the endpoint query override request parameters of the same name (witness). Proved: URL, body and query otherwise, for every URL, request and content type."
  },
  {
   "property": "C42",
   "status": "partial",
   "theorems": [
    "Verif.Props.C42_media_type",
    "Verif.Props.C42_unknown_type",
    "Verif.Props.C42_no_content_type",
    "Verif.Props.C42_verify_header",
    "Verif.Props.C42_verify_header_unknown",
    "Verif.Props.C42_violated_prefix_and_case"
   ],
   "note": "Violated: content types are compared by case sensitive prefix (witness). Proved: decision for every header and expected type."
  },
  {
   "property": "C43",
   "status": "partial",
   "theorems": [
    "Verif.Props.C43_reject",
    "Verif.Props.C43_accept",
    "Verif.Props.C43_own_issuer_accepted",
    "Verif.Props.C43_keys_for_issuer",
    "Verif.Props.C43_violated_mismatch_false",
    "Verif.Props.C43_discovery_url"
   ],
   "note": "Violated: allow[\"issuer_mismatch\"] = False still disables the check (witness). Proved: rejection, acceptance and key loading for every metadata document."
  },
  {
   "property": "C44",
   "status": "partial",
   "theorems": [
    "Verif.Props.C44_endpoints_partial",
    "Verif.Props.C44_endpoint_used",
    "Verif.Props.C44_violated_second_service",
    "Verif.Props.C44_configured_metadata"
   ],
   "note": "Violated: only the first service with an endpoint name gets the advertised endpoint, a stale one stays (witness). Proved for the first service of each endpoint name."
  },
  {
   "property": "C45",
   "status": "partial",
   "theorems": [
    "Verif.Props.C45_single_string_partial",
    "Verif.Props.C45_most_preferred_partial",
    "Verif.Props.C45_list_filtered",
    "Verif.Props.C45_no_common_value_partial",
    "Verif.Props.C45_other_preferences",
    "Verif.Props.C45_violated_empty_list",
    "Verif.Props.C45_violated_stale",
    "Verif.Props.C45_violated_default_substring",
    "Verif.Props.C45_registration_request"
   ],
   "note": "Violated: an empty list is accepted, an older value is kept, provider defaults are compared by substring (witnesses). Proved otherwise for every preference and metadata."
  },
  {
   "property": "C46",
   "status": "partial",
   "theorems": [
    "Verif.Props.C46_grant_types",
    "Verif.Props.C46_violated_token",
    "Verif.Props.C46_request"
   ],
   "note": "Violated: response type token implies no grant type (witness). Proved for all other response types in every word order."
  },
  {
   "property": "C47",
   "status": "partial",
   "theorems": [
    "Verif.Props.C47_callbacks_separate",
    "Verif.Props.C47_flag_gives_callback",
    "Verif.Props.C47_response_type_has_callback_partial",
    "Verif.Props.C47_violated_code_id_token",
    "Verif.Props.C47_hash_to_issuer",
    "Verif.Props.C47_hash_to_issuer_other",
    "Verif.Props.C47_redirect_uris"
   ],
   "note": "Violated: code id_token yields no callback (witness). Proved for the others; separation of callbacks; hash to issuer."
  },
  {
   "property": "C48",
   "status": "proved",
   "theorems": [
    "Verif.Props.C48_given",
    "Verif.Props.C48_registered",
    "Verif.Props.C48_by_flow",
    "Verif.Props.C48_by_given_flow",
    "Verif.Props.C48_by_behaviour",
    "Verif.Props.C48_none"
   ],
   "note": ""
  },
  {
   "property": "C49",
   "status": "partial",
   "theorems": [
    "Verif.Props.C49_credentials",
    "Verif.Props.C49_no_client_id",
    "Verif.Props.C49_response_kept",
    "Verif.Props.C49_violated_agreed_parameters",
    "Verif.Props.C49_read"
   ],
   "note": "Violated: agreed parameters do not change the behaviour used (witness). Proved: credentials, client id, stored response, read request."
  },
  {
   "property": "C50",
   "status": "proved",
   "theorems": [
    "Verif.Props.C50_never_both",
    "Verif.Props.C50_jwks_uri_given",
    "Verif.Props.C50_own_keys"
   ],
   "note": ""
  },
  {
   "property": "C51",
   "status": "partial",
   "theorems": [
    "Verif.Props.C51_url",
    "Verif.Props.C51_violated_empty_host",
    "Verif.Props.C51_violated_two_ats",
    "Verif.Props.C51_resource"
   ],
   "note": "Violated: empty host, first of two @ (witnesses). Proved: scheme, authority, path and decoded query for every identifier."
  },
  {
   "property": "C52",
   "status": "partial",
   "theorems": [
    "Verif.Props.C52_issuer_partial",
    "Verif.Props.C52_http_refused",
    "Verif.Props.C52_violated_upper_case"
   ],
   "note": "Violated: HTTP:// in upper case accepted (witness). Proved: which link is taken, http refused."
  },
  {
   "property": "C53",
   "status": "partial",
   "theorems": [
    "Verif.Props.C53_xri",
    "Verif.Props.C53_host",
    "Verif.Props.C53_user_at_host",
    "Verif.Props.C53_host_path",
    "Verif.Props.C53_host_port",
    "Verif.Props.C53_acct",
    "Verif.Props.C53_url",
    "Verif.Props.C53_violated_device"
   ],
   "note": "Violated: device: URIs are taken for host and port (witness). Proved per identifier class."
  },
  {
   "property": "C54",
   "status": "proved",
   "theorems": [
    "Verif.Props.C54_safe_str_cmp"
   ],
   "note": ""
  },
  {
   "property": "C55",
   "status": "partial",
   "theorems": [
    "Verif.Props.C55_signed_partial",
    "Verif.Props.C55_encrypted",
    "Verif.Props.C55_signed_violated"
   ],
   "note": "Violated in signed mode for a payload containing the separator (witness). Proved: signed mode without separator; encrypted mode for every payload. MAC/AEAD are parameters."
  },
  {
   "property": "C56",
   "status": "proved",
   "theorems": [
    "Verif.Props.C56_signed",
    "Verif.Props.C56_accepted_authentic",
    "Verif.Props.C56_changed_content",
    "Verif.Props.C56_encrypted",
    "Verif.Props.C56_other_shape"
   ],
   "note": ""
  },
  {
   "property": "C57",
   "status": "partial",
   "theorems": [
    "Verif.Props.C57_boundary_violated",
    "Verif.Props.C57_dealer_partial"
   ],
   "note": "Violated for plain cookies: every boundary shift verifies. Proved: the cookie dealer refuses every shifted cookie."
  },
  {
   "property": "C58",
   "status": "partial",
   "theorems": [
    "Verif.Props.C58_roundtrip_signed_partial",
    "Verif.Props.C58_roundtrip_encrypted_partial",
    "Verif.Props.C58_timestamps_agree",
    "Verif.Props.C58_separator_violated",
    "Verif.Props.C58_trailing_colon_violated"
   ],
   "note": "Violated for values containing :: or ending in a colon (witnesses). Proved: round trip otherwise, timestamp agreement for every cookie."
  },
  {
   "property": "C59",
   "status": "partial",
   "theorems": [
    "Verif.Props.C59_proof_describes_request_partial",
    "Verif.Props.C59_key_is_kept",
    "Verif.Props.C59_other_endpoint_violated"
   ],
   "note": "Violated when the caller gives an endpoint (witness: the proof is for the endpoint in the metadata). Proved: the proof is for the method and URL of the request if it goes where the metadata say; key and algorithm never change after every history."
  },
  {
   "property": "C60",
   "status": "partial",
   "theorems": [
    "Verif.Props.C60_common_algorithm_partial",
    "Verif.Props.C60_not_announced_violated"
   ],
   "note": "Violated when the metadata announce no DPoP algorithms (witness: KeyError). Proved: the first common algorithm, and no header without one, for all lists."
  },
  {
   "property": "C61",
   "status": "partial",
   "theorems": [
    "Verif.Props.C61_pushed_request_partial",
    "Verif.Props.C61_created_violated"
   ],
   "note": "Violated for status 201, which RFC 9126 prescribes (witness: the request is sent on the front channel all the same). Proved: what is pushed and what the front channel gets for every request and answer."
  },
  {
   "property": "C62",
   "status": "partial",
   "theorems": [
    "Verif.Props.C62_request_arguments_partial",
    "Verif.Props.C62_no_redirects",
    "Verif.Props.C62_cookies_and_callback_ignored_violated",
    "Verif.Props.C62_received_cookies_stored",
    "Verif.Props.C62_cookie_of_header",
    "Verif.Props.C62_answer",
    "Verif.Props.C62_jar_unchanged",
    "Verif.Props.C62_deleted_cookie_kept_violated"
   ],
   "note": "Violated: what is sent depends neither on the cookie jar nor on the request call back (proved for all), and deleted cookies stay (witness). Proved: arguments given per request, defaults, no redirects, received cookies are stored."
  },
  {
   "property": "C63",
   "status": "proved",
   "theorems": [
    "Verif.Props.C63_one_slash"
   ],
   "note": ""
  },
  {
   "property": "C64",
   "status": "partial",
   "theorems": [
    "Verif.Props.C64_file_iff",
    "Verif.Props.C64_one_to_one_partial",
    "Verif.Props.C64_foreign_refused_partial",
    "Verif.Props.C64_violated"
   ],
   "note": "Violated: a URL that continues the host name of the base URL is accepted and shares its file (witnesses). Proved: exact characterisation, one-to-one below the base URL, everything else refused."
  },
  {
   "property": "C65",
   "status": "partial",
   "theorems": [
    "Verif.Props.C65_set_param",
    "Verif.Props.C65_lower_or_upper",
    "Verif.Props.C65_replace_placeholder",
    "Verif.Props.C65_replace_no_placeholder",
    "Verif.Props.C65_violated_upper_case_dropped",
    "Verif.Props.C65_replace_frame",
    "Verif.Props.C65_set_param_no_placeholder"
   ],
   "note": "Violated: replace drops upper-case keys whose value has no placeholder (witness). Proved: everything else."
  },
  {
   "property": "C66",
   "status": "partial",
   "theorems": [
    "Verif.Props.C66_only_assigned_claims_partial",
    "Verif.Props.C66_no_endpoint_no_change",
    "Verif.Props.C66_names_assigned_violated"
   ],
   "note": "Violated if _claim_names is itself assigned to a source (witness). Proved otherwise for all documents and answers, also when the call raises."
  },
  {
   "property": "C67",
   "status": "partial",
   "theorems": [
    "Verif.Props.C67_sent_and_stored_partial",
    "Verif.Props.C67_given_nonce_violated"
   ],
   "note": "Violated: a nonce given by the caller with response type \"token id_token\" is sent but not bound (witness). Proved: state, nonce, stored request and URL otherwise."
  },
  {
   "property": "C68",
   "status": "proved",
   "theorems": [
    "Verif.Props.C68_result"
   ],
   "note": ""
  },
  {
   "property": "C69",
   "status": "proved",
   "theorems": [
    "Verif.Props.C69_verified_against_registration"
   ],
   "note": ""
  },
  {
   "property": "C70",
   "status": "proved",
   "theorems": [
    "Verif.Props.C70_setup_is_stable"
   ],
   "note": "For every handler, history and issuer."
  },
  {
   "property": "C71",
   "status": "partial",
   "theorems": [
    "Verif.Props.C71_own_configuration_partial",
    "Verif.Props.C71_shared_behaviour_violated"
   ],
   "note": "Violated for providers that share a configuration with a behaviour section: the method negotiated with one is used at the other (witness). Proved: providers with configurations of their own are isolated completely."
  },
  {
   "property": "C72",
   "status": "partial",
   "theorems": [
    "Verif.Props.C72_file_is_new_partial",
    "Verif.Props.C72_reference_stays_partial",
    "Verif.Props.C72_one_file",
    "Verif.Props.C72_registered_uri_violated"
   ],
   "note": "Violated with a registered request_uri: every session uses the same file (proved for all). Proved without: new file, stays for every history."
  },
  {
   "property": "C73",
   "status": "proved",
   "theorems": [
    "Verif.Props.C73_request_object"
   ],
   "note": "Signing and encryption abstract."
  },
  {
   "property": "C74",
   "status": "proved",
   "theorems": [
    "Verif.Props.C74_front_channel"
   ],
   "note": "For every request; construct_request_parameter is C72/C73."
  },
  {
   "property": "C75",
   "status": "proved",
   "theorems": [
    "Verif.Props.C75_others_change_nothing"
   ],
   "note": "Under the conditions of C11: client named after its issuer and not replaced, no state in the pre_construct configuration, generated session keys."
  },
  {
   "property": "C76",
   "status": "partial",
   "theorems": [
    "Verif.Props.C76_stored",
    "Verif.Props.C76_refresh_request",
    "Verif.Props.C76_round_trip_partial",
    "Verif.Props.C76_default_session_violated",
    "Verif.Props.C76_default_session_witness_violated"
   ],
   "note": "Violated when no session is named: tokens are stored under the empty key and refreshing looks for session cc (proved for all; witness run). Proved: everything else, for every answer and store."
  },
  {
   "property": "C77",
   "status": "proved",
   "theorems": [
    "Verif.Props.C77_request",
    "Verif.Props.C77_no_state_refused",
    "Verif.Props.C77_scope"
   ],
   "note": "For every argument, store and configuration without constructor arguments of its own."
  },
  {
   "property": "C78",
   "status": "partial",
   "theorems": [
    "Verif.Props.C78_token_of_session_partial",
    "Verif.Props.C78_unknown_session_refused",
    "Verif.Props.C78_claims_sent_violated"
   ],
   "note": "Violated: the claims of a verified ID Token are sent instead of the token (proved for all such stores). Proved: which response it is taken from; unknown sessions are refused."
  },
  {
   "property": "C79",
   "status": "proved",
   "theorems": [
    "Verif.Props.C79_token_message",
    "Verif.Props.C79_verifier_of_session",
    "Verif.Props.C79_token_sent"
   ],
   "note": "For every store, argument and configuration."
  },
  {
   "property": "C80",
   "status": "partial",
   "theorems": [
    "Verif.Props.C80_asked_partial",
    "Verif.Props.C80_configured_flow_violated",
    "Verif.Props.C80_text_scope_violated"
   ],
   "note": "Violated for a scope given as one text, and for a configured response type or mode, with which the callback of another flow is asked for (witnesses). Proved: all other parameters for every argument and configuration; state and PKCE parameters are C67, C21."
  },
  {
   "property": "C81",
   "status": "proved",
   "theorems": [
    "Verif.Props.C81_code_login",
    "Verif.Props.C81_code_login_without_userinfo",
    "Verif.Props.C81_implicit_login",
    "Verif.Props.C81_secret_authenticates",
    "Verif.Props.C81_begin_waits",
    "Verif.Props.C81_waits_among_others"
   ],
   "note": "For every equipped client (stated as hypotheses on configuration and endpoints), every honest answer and, for begin, every history of other calls; DPoP clients are not covered. Verification of ID Tokens by the message layer is abstract."
  },
  {
   "property": "C82",
   "status": "proved",
   "theorems": [
    "Verif.Props.C82_code_exchange",
    "Verif.Props.C82_refresh",
    "Verif.Props.C82_own_request"
   ],
   "note": "For every store and configuration; refreshing assumes no stored token response has a parameter client_secret (otherwise see C38).  C82_own_request covers requests made by the client directly, without naming a method."
  },
  {
   "property": "C83",
   "status": "partial",
   "theorems": [
    "Verif.Props.C83_new_client",
    "Verif.Props.C83_user_partial",
    "Verif.Props.C83_known_provider",
    "Verif.Props.C83_failed_setup",
    "Verif.Props.C83_redirected_registration_violated",
    "Verif.Props.C83_leftover_issuer_violated"
   ],
   "note": "C83_new_client, C83_known_provider, C83_user_partial and C83_failed_setup hold for every handler, configuration and answer. The code violates two parts: a registration answered with a redirect leaves a client without identity (C83_redirected_registration_violated), and a refused WebFinger request is ignored, so that the user is sent to the issuer left over in the shared configuration (C83_leftover_issuer_violated)."
  },
  {
   "property": "C84",
   "status": "proved",
   "theorems": [
    "Verif.Props.C84_begin",
    "Verif.Props.C84_begin_in_use",
    "Verif.Props.C84_login"
   ],
   "note": "For every client meeting the stated conditions (CanBegin, Redirects, PlainAuthorization: no request object, no PAR, no response-mode add-on) and every history of calls."
  },
  {
   "property": "C85",
   "status": "proved",
   "theorems": [
    "Verif.Props.C85_client_set_up",
    "Verif.Props.C85_first_login"
   ],
   "note": "For every configuration and honest provider meeting the stated conditions (Metadata, Identity, LoginConf). For configured metadata the code does not negotiate preferences, so that what to ask for has to be configured as behaviour."
  },
  {
   "property": "C86",
   "status": "proved",
   "theorems": [
    "Verif.Props.C86_refresh",
    "Verif.Props.C86_refreshed_token_is_valid",
    "Verif.Props.C86_refreshes_forever",
    "Verif.Props.C86_can_authenticate",
    "Verif.Props.C86_login_can_be_refreshed",
    "Verif.Props.C86_refresh_call"
   ],
   "note": "For every client meeting CanRefresh and provider meeting HonestRefresh / Rotates. The provider has to send a refresh token with every answer: that the code forgets the old one otherwise is the finding of C24."
  },
  {
   "property": "C87",
   "status": "partial",
   "theorems": [
    "Verif.Props.C87_round_trip",
    "Verif.Props.C87_incomplete",
    "Verif.Props.C87_possession_partial",
    "Verif.Props.C87_verify_iff",
    "Verif.Props.C87_sent_proof_verifies",
    "Verif.Props.C87_unchecked_violated",
    "Verif.Props.C87_key_replaced_violated"
   ],
   "note": "C87_round_trip, C87_incomplete, C87_sent_proof_verifies, C87_verify_iff and C87_possession_partial hold for every proof. The code violates the rest: verify_header does not call verify, so that proofs of another type, with algorithm none or without identifier, URL and time are returned (C87_unchecked_violated), and a jwk in the payload replaces the key the signature was verified with (C87_key_replaced_violated)."
  },
  {
   "property": "C88",
   "status": "partial",
   "theorems": [
    "Verif.Props.C88_schedules",
    "Verif.Props.C88_finishes",
    "Verif.Props.C88_other_sessions",
    "Verif.Props.C88_same_store",
    "Verif.Props.C88_lost_update_violated"
   ],
   "note": "C88_schedules, C88_finishes, C88_other_sessions and C88_same_store hold for every number of threads and every schedule, for sessions and values of their own. For one session the claim is violated: store_item reads and writes the whole session, so that one of two concurrent updates is lost (C88_lost_update_violated)."
  },
  {
   "property": "C89",
   "status": "partial",
   "theorems": [
    "Verif.Props.C89_all_or_nothing",
    "Verif.Props.C89_crash",
    "Verif.Props.C89_retry",
    "Verif.Props.C89_remove_violated",
    "Verif.Props.C89_bind_violated"
   ],
   "note": "C89_all_or_nothing, C89_crash and C89_retry (create, store, bind) hold for every crash point. The code violates the rest: a removal interrupted after its first operation leaves the index entries for good, and a binding interrupted in the middle is not removed with its session (C89_remove_violated, C89_bind_violated)."
  },
  {
   "property": "C90",
   "status": "proved",
   "theorems": [
    "Verif.Props.C90_repeated_login",
    "Verif.Props.C90_after_attempts"
   ],
   "note": "For every history after begin that neither clears the session nor replaces its client, with other states and nonces drawn; for attempts to finalize alone there is no condition (C90_after_attempts). Code flow and code id_token, with a userinfo service, as C81_code_login."
  },
  {
   "property": "C91",
   "status": "partial",
   "theorems": [
    "Verif.Props.C91_any_mapping",
    "Verif.Props.C91_in_memory_partial",
    "Verif.Props.C91_in_memory_removes",
    "Verif.Props.C91_in_memory_violated",
    "Verif.Props.C91_state_db_unused_violated"
   ],
   "note": "C91_any_mapping holds for every lawful mapping and every history. The code violates the rest: InMemoryStateDataBase removes unknown sessions without complaint (C91_in_memory_violated; for histories whose removals succeed it is as a dictionary, C91_in_memory_partial, and what is removed is gone, C91_in_memory_removes), and the store given to the handler is never used (C91_state_db_unused_violated)."
  },
  {
   "property": "C92",
   "status": "partial",
   "theorems": [
    "Verif.Props.C92_destination",
    "Verif.Props.C92_sent",
    "Verif.Props.C92_nowhere",
    "Verif.Props.C92_discovery",
    "Verif.Props.C92_read_registration",
    "Verif.Props.C92_read_nowhere_violated"
   ],
   "note": "C92_destination, C92_sent, C92_nowhere for every service with endpoint, C92_discovery and C92_read_registration for the others (WebFinger: C51). Violated for reading a registration whose location is not known: a request to the empty URL is sent (C92_read_nowhere_violated)."
  },
  {
   "property": "C93",
   "status": "proved",
   "theorems": [
    "Verif.Props.C93_generated",
    "Verif.Props.C93_unique",
    "Verif.Props.C93_used",
    "Verif.Props.C93_mix_up",
    "Verif.Props.C93_callbacks"
   ],
   "note": "C93_generated, C93_unique, C93_used, C93_mix_up and C93_callbacks. That the hash (SHA-256) does not collide on the texts at hand is a hypothesis; the seeds of the callbacks are assumed to be of equal length, as those the code draws are."
  },
  {
   "property": "C94",
   "status": "proved",
   "theorems": [
    "Verif.Props.C94_session_lives"
   ],
   "note": "C94_session_lives composes C81, C90, C75 and C86. The nonces and states drawn are assumed fresh (see C81), and the provider to give a new refresh token with every refresh (see C24 for what happens otherwise)."
  },
  {
   "property": "C95",
   "status": "proved",
   "theorems": [
    "Verif.Props.C95_as_if_alone",
    "Verif.Props.C95_scope_interferes"
   ],
   "note": "C95_as_if_alone compares the history with the history of the own calls alone; exceptions are compared exactly but for the two by which an ID Token is refused for its nonce. C95_scope_interferes is the witness that the condition on the shared scope is needed. A DPoP client must have its key (it is made with the first token request of any session)."
  },
  {
   "property": "C96",
   "status": "proved",
   "theorems": [
    "Verif.Props.C96_made_iff",
    "Verif.Props.C96_as_configured",
    "Verif.Props.C96_any_order",
    "Verif.Props.C96_pkce_left_out",
    "Verif.Props.C96_clients"
   ],
   "note": "C96_made_iff, C96_as_configured, C96_any_order, C96_clients; C96_pkce_left_out is the silent omission. Functions and classes given by the user are not modelled; an add-on is configured at most once (the configuration is a dictionary)."
  },
  {
   "property": "C97",
   "status": "proved",
   "theorems": [
    "Verif.Props.C97_read_back",
    "Verif.Props.C97_sent"
   ],
   "note": "C97_read_back, C97_sent. Endpoints with a query or fragment of their own are the subject of C41 (there the query of the endpoint wins). How oidcmsg writes the values of a message is taken from its documentation (Model/Util toParams)."
  },
  {
   "property": "C98",
   "status": "proved",
   "theorems": [
    "Verif.Props.C98_deserialised",
    "Verif.Props.C98_response",
    "Verif.Props.C98_unreadable",
    "Verif.Props.C98_answer",
    "Verif.Props.C98_error_answer"
   ],
   "note": "C98_deserialised (both directions), C98_response, C98_unreadable, C98_answer, C98_error_answer. The readers of messages and of JWTs are parameters. A content type is recognised by its start (see C42); texts in the formats jose, jws, jwe are returned unread (see C39)."
  },
  {
   "property": "C99",
   "status": "partial",
   "theorems": [
    "Verif.Props.C99_settings_partial",
    "Verif.Props.C99_verified_partial",
    "Verif.Props.C99_answers_partial",
    "Verif.Props.C99_own_requests",
    "Verif.Props.C99_push_violated",
    "Verif.Props.C99_http_params"
   ],
   "note": "C99_settings_partial, C99_verified_partial, C99_answers_partial cover every request but the pushed ones, C99_own_requests says which these are. Violated for pushed authorization requests: they are sent by requests.get past the HTTP library, with none of the settings (C99_push_violated)."
  },
  {
   "property": "C100",
   "status": "partial",
   "theorems": [
    "Verif.Props.C100_settings_partial",
    "Verif.Props.C100_httpc_params_partial",
    "Verif.Props.C100_httpc_params_violated",
    "Verif.Props.C100_server_context",
    "Verif.Props.C100_no_tls"
   ],
   "note": "C100_settings_partial, C100_server_context, C100_no_tls in full; C100_httpc_params_partial for the HTTP settings in lower case. Violated for HTTPC_PARAMS in upper case: never looked at, because the default is not empty (C100_httpc_params_violated)."
  },
  {
   "property": "C101",
   "status": "proved",
   "theorems": [
    "Verif.Props.C101_claims",
    "Verif.Props.C101_unusable_refused",
    "Verif.Props.C101_usable_accepted"
   ],
   "note": "C101_claims, C101_unusable_refused, C101_usable_accepted. User info that names a source for the list of names itself is left out. That a source may also be named for the subject is C25_aggregated_violated."
  },
  {
   "property": "C102",
   "status": "partial",
   "theorems": [
    "Verif.Props.C102_login_url",
    "Verif.Props.C102_begin",
    "Verif.Props.C102_userinfo_token",
    "Verif.Props.C102_github_violated"
   ],
   "note": "C102_login_url, C102_begin, C102_userinfo_token in full for the OIDC services (the latter: with bearer_header, the default). Violated by GitHub's user info service: the token is in the URL (C102_github_violated). Request objects and pushed requests are taken to be made without the client secret (a MAC with it does depend on it)."
  },
  {
   "property": "C103",
   "status": "partial",
   "theorems": [
    "Verif.Props.C103_whose_keys",
    "Verif.Props.C103_no_foreign_keys",
    "Verif.Props.C103_published_keys_held",
    "Verif.Props.C103_configured_jwks_uri_violated",
    "Verif.Props.C103_client_named_like_issuer_violated"
   ],
   "note": "C103_whose_keys (exact contents of every jar after every history), C103_no_foreign_keys and C103_published_keys_held in full. Violated: C103_configured_jwks_uri_violated (keys of configured metadata are not loaded), C103_client_named_like_issuer_violated. Looking keys up in the jar is external (cryptojwt)."
  },
  {
   "property": "C104",
   "status": "partial",
   "theorems": [
    "Verif.Props.C104_attributes",
    "Verif.Props.C104_handover",
    "Verif.Props.C104_restart",
    "Verif.Props.C104_goes_on",
    "Verif.Props.C104_login_finished_elsewhere",
    "Verif.Props.C104_same_addresses",
    "Verif.Props.C104_own_sessions_violated",
    "Verif.Props.C104_old_address_violated",
    "Verif.Props.C104_registration_token_violated"
   ],
   "note": "C104_attributes, C104_handover, C104_restart, C104_goes_on, C104_login_finished_elsewhere, C104_same_addresses hold. Violated: C104_own_sessions_violated, C104_old_address_violated, C104_registration_token_violated. oidcmsg's ImpExp and KeyJar.dump are external: a dump is taken to be a snapshot, attributes that are None are left out. Dumping the service objects (DLDict, external) is not modelled."
  },
  {
   "property": "C105",
   "status": "proved",
   "theorems": [
    "Verif.Props.C105_unknown_session",
    "Verif.Props.C105_login_was_begun"
   ],
   "note": "C105_login_was_begun, C105_unknown_session. Random session values have the form library-made ones have and do not repeat (hypotheses). Verification of signatures is external (oidcmsg, cryptojwt)."
  },
  {
   "property": "C106",
   "status": "partial",
   "theorems": [
    "Verif.Props.C106_form",
    "Verif.Props.C106_session_value",
    "Verif.Props.C106_every_value",
    "Verif.Props.C106_predictable_violated",
    "Verif.Props.C106_next_number_violated",
    "Verif.Props.C106_next_value_violated",
    "Verif.Props.C106_independent_source",
    "Verif.Props.C106_numbers_seen",
    "Verif.Props.C106_thrown_away",
    "Verif.Props.C106_verbatim"
   ],
   "note": "C106_form, C106_session_value, C106_every_value, C106_numbers_seen, C106_thrown_away, C106_verbatim, C106_independent_source. Not to be predicted does not hold: C106_predictable_violated, C106_next_number_violated, C106_next_value_violated. CPython generator and random.choice are modelled after CPython; seeding is arbitrary."
  },
  {
   "property": "C107",
   "status": "partial",
   "theorems": [
    "Verif.Props.C107_calls",
    "Verif.Props.C107_history",
    "Verif.Props.C107_login",
    "Verif.Props.C107_login_fragment",
    "Verif.Props.C107_unlisted_violated",
    "Verif.Props.C107_generated_violated"
   ],
   "note": "C107_calls, C107_history, C107_login, C107_login_fragment hold. Finishing at generated addresses is violated: C107_unlisted_violated, C107_generated_violated. Flask, its signed session cookie and the templates are external; random session values as in C105; the parser (oidcmsg) is taken to keep state."
  },
  {
   "property": "C108",
   "status": "partial",
   "theorems": [
    "Verif.Props.C108_logout_partial",
    "Verif.Props.C108_login_violated",
    "Verif.Props.C108_logout_violated"
   ],
   "note": "C108_logout_partial: a logout is for a session a callback of that browser named. Violated: C108_login_violated, C108_logout_violated."
  },
  {
   "property": "C109",
   "status": "partial",
   "theorems": [
    "Verif.Props.C109_provider_logout_violated",
    "Verif.Props.C109_unverified_partial"
   ],
   "note": "C109_unverified_partial: requests that are not verified are refused and change nothing. Violated for every other request and state: C109_provider_logout_violated."
  },
  {
   "property": "C110",
   "status": "proved",
   "theorems": [
    "Verif.Props.C110_site_login"
   ],
   "note": "C110_site_login. The provider is honest as in C81; Flask is external. Generated callback addresses are not covered: see C107_generated_violated."
  },
  {
   "property": "C111",
   "status": "proved",
   "theorems": [
    "Verif.Props.C111_is_begin",
    "Verif.Props.C111_session_kept",
    "Verif.Props.C111_new_session"
   ],
   "note": "C111_is_begin, C111_session_kept, C111_new_session. Random values do not repeat (as in C12, C75); nobody has the client set up anew."
  },
  {
   "property": "C112",
   "status": "partial",
   "theorems": [
    "Verif.Props.C112_renewed_violated",
    "Verif.Props.C112_issuer_again_partial",
    "Verif.Props.C112_registered_once",
    "Verif.Props.C112_provider_names_files_violated",
    "Verif.Props.C112_nothing_named"
   ],
   "note": "C112_registered_once, C112_issuer_again_partial, C112_nothing_named hold. Violated: C112_renewed_violated (for every session, state and circumstances), C112_provider_names_files_violated."
  },
  {
   "property": "C113",
   "status": "partial",
   "theorems": [
    "Verif.Props.C113_id_token",
    "Verif.Props.C113_token",
    "Verif.Props.C113_collected",
    "Verif.Props.C113_token_without_userinfo_violated",
    "Verif.Props.C113_implicit_collected_violated"
   ],
   "note": "C113_id_token, C113_token, C113_collected hold. Violated for every session and response: C113_token_without_userinfo_violated, C113_implicit_collected_violated."
  },
  {
   "property": "C114",
   "status": "partial",
   "theorems": [
    "Verif.Props.C114_one_subject_partial",
    "Verif.Props.C114_front_token_violated",
    "Verif.Props.C114_refresh_violated"
   ],
   "note": "C114_one_subject_partial holds (no nameless session, no aggregated or distributed claims, the session had no tokens before). Violated: C114_front_token_violated (for every honest token endpoint and any front-channel ID Token), C114_refresh_violated."
  },
  {
   "property": "C115",
   "status": "partial",
   "theorems": [
    "Verif.Props.C115_oauth2_login_partial",
    "Verif.Props.C115_subject_needed_violated"
   ],
   "note": "C115_oauth2_login_partial holds for servers whose claims have a \"sub\" (the services are the OIDC ones, configured as in the documentation; tokens sent in the header). Violated: C115_subject_needed_violated (finalize never succeeds without a subject in the ID Token or the claims, which GitHub and LinkedIn do not have)."
  },
  {
   "property": "C116",
   "status": "partial",
   "theorems": [
    "Verif.Props.C116_userinfo_partial",
    "Verif.Props.C116_redirect_violated"
   ],
   "note": "C116_userinfo_partial holds (no nameless session, no service configured for web pages) except for redirects. Violated: C116_redirect_violated (every redirect is returned as user information), with a finalize as example."
  },
  {
   "property": "C117",
   "status": "partial",
   "theorems": [
    "Verif.Props.C117_lifetime",
    "Verif.Props.C117_deleted",
    "Verif.Props.C117_keys",
    "Verif.Props.C117_empty_key_violated",
    "Verif.Props.C117_zero_violated",
    "Verif.Props.C117_kept_violated"
   ],
   "note": "C117_lifetime (positive lifetimes), C117_deleted, C117_keys hold. Violated: C117_zero_violated (a lifetime of 0 minutes lasts until the browser is closed), C117_kept_violated (the dealer reads a cookie after its lifetime: only the browser knows the end), C117_empty_key_violated (an empty key of bytes is not noticed, cookies are written unencrypted)."
  },
  {
   "property": "C118",
   "status": "partial",
   "theorems": [
    "Verif.Props.C118_interference_partial",
    "Verif.Props.C118_shown_partial",
    "Verif.Props.C118_failure_noticed",
    "Verif.Props.C118_no_answer_violated"
   ],
   "note": "For requests that get an answer: C118_interference_partial (records at INFO do not depend on what was requested), C118_shown_partial (they are about the answer only). Without an answer: C118_failure_noticed (all that is seen at INFO is at ERROR, names the exception and says nothing but it and the request). Violated: C118_no_answer_violated (if there is no answer, headers and body of the request, with secrets, are logged at ERROR; util.sanitize changes nothing)."
  },
  {
   "property": "C119",
   "status": "partial",
   "theorems": [
    "Verif.Props.C119_level_partial",
    "Verif.Props.C119_debug",
    "Verif.Props.C119_sticky_violated"
   ],
   "note": "C119_level_partial (until debugging is configured), C119_debug. Violated: C119_sticky_violated (debugging changes the module default or the dictionary given, so later calls without debug get DEBUG too)."
  },
  {
   "property": "C120",
   "status": "partial",
   "theorems": [
    "Verif.Props.C120_one_key_partial",
    "Verif.Props.C120_refresh_violated",
    "Verif.Props.C120_scheme_violated"
   ],
   "note": "C120_one_key_partial holds in every history in which the client is not replaced (signing and key generation are external). Violated: C120_refresh_violated (refresh requests have no proof), C120_scheme_violated (the token is presented as Bearer, not DPoP)."
  },
  {
   "property": "C121",
   "status": "proved",
   "theorems": [
    "Verif.Props.C121_dpop_login"
   ],
   "note": "C121_dpop_login. Signing and key generation are external; the provider is honest as in C81."
  },
  {
   "property": "C122",
   "status": "partial",
   "theorems": [
    "Verif.Props.C122_alone",
    "Verif.Props.C122_known_providers",
    "Verif.Props.C122_first_use_violated",
    "Verif.Props.C122_other_provider_violated",
    "Verif.Props.C122_not_lost_partial"
   ],
   "note": "C122_alone (the steps of a thread by itself are the call), C122_known_providers (linearizability for providers the handler has clients for), C122_not_lost_partial (any providers, if no other thread puts a client in place under the same name). The steps of client_setup and begin are interleaved; each is atomic. Violated: C122_first_use_violated (first use of a provider by two threads: one session is lost), C122_other_provider_violated (a user is sent to the provider another user chose)."
  },
  {
   "property": "C123",
   "status": "proved",
   "theorems": [
    "Verif.Props.C123_call",
    "Verif.Props.C123_history",
    "Verif.Props.C123_count",
    "Verif.Props.C123_begin"
   ],
   "note": "C123_call, C123_history, C123_count, C123_begin. Hypothesis of the first three: the call does not replace the client of the provider (begin with WebFinger can, C70); C123_begin covers the client that is put in place then."
  },
  {
   "property": "C124",
   "status": "partial",
   "theorems": [
    "Verif.Props.C124_as_if_alone_partial",
    "Verif.Props.C124_calls",
    "Verif.Props.C124_in_flight",
    "Verif.Props.C124_first_proof_violated"
   ],
   "note": "C124_as_if_alone_partial (results, requests and record as if alone, and termination, for any number of threads and any schedule, provided a DPoP key is there if DPoP is in use), C124_in_flight (sessions begun in any history meet the hypotheses), C124_calls (what a thread does is what the handler does). The steps are those at which a call reads or changes the shared client; each is atomic. Violated: C124_first_proof_violated (two threads make the first DPoP proofs at once)."
  },
  {
   "property": "C125",
   "status": "partial",
   "theorems": [
    "Verif.Props.C125_whole_logins_partial",
    "Verif.Props.C125_begin",
    "Verif.Props.C125_not_begun"
   ],
   "note": "C125_whole_logins_partial (results, requests and record as if alone, and termination, for any number of threads that begin and go on, or go on with sessions begun before, under any schedule, provided a DPoP key is there if DPoP is in use and the negotiated scope, where it is used, has openid in it), C125_not_begun (session values that no call drew meet the hypothesis after any history), C125_begin (begin of the handler at a client set up is what the thread does). What is missing: first DPoP proofs (violated, C124_first_proof_violated) and the first begin at a negotiated scope without openid, which changes the scope for all (see the findings in DESIGN.md)."
  },
  {
   "property": "C126",
   "status": "partial",
   "theorems": [
    "Verif.Props.C126_as_if_alone_partial",
    "Verif.Props.C126_history",
    "Verif.Props.C126_lookup_violated"
   ],
   "note": "C126_as_if_alone_partial (results, requests and record as if alone, and termination, for any number of threads and providers under any schedule, look-ups included, for providers whose client is there; DPoP and scope as in C125), C126_history (names, behaviour, stored keys and unknown sessions are as the theorem wants them after any history). What is missing is violated: C126_lookup_violated (a look-up raises RuntimeError if a client is added meanwhile); first use of a provider by several threads is C122. clear_session and backchannel_logout are one step in the model and are not among the calls of the theorem."
  },
  {
   "property": "C127",
   "status": "partial",
   "theorems": [
    "Verif.Props.C127_apart_partial",
    "Verif.Props.C127_made",
    "Verif.Props.C127_login",
    "Verif.Props.C127_no_logout",
    "Verif.Props.C127_other_handlers_provider_violated",
    "Verif.Props.C127_logout_exception_violated"
   ],
   "note": "C127_apart_partial (handlers of one process keep the clients and return the results they would on their own, for logins that name the issuer), C127_made (services, PKCE, place of the keys of every client), C127_login (S256 challenge and its verifier, after any history), C127_no_logout (logout and close never succeed). Violated: C127_other_handlers_provider_violated (a user whose WebFinger request is refused is sent to a provider another handler was used for), C127_logout_exception_violated (AttributeError instead of OidcServiceError)."
  },
  {
   "property": "C128",
   "status": "partial",
   "theorems": [
    "Verif.Props.C128_same_addresses_partial",
    "Verif.Props.C128_made_again",
    "Verif.Props.C128_given_seed_violated",
    "Verif.Props.C128_given_sessions_violated"
   ],
   "note": "C128_same_addresses_partial (callback addresses, redirect URIs, issuer, behaviour and the registration request are the same, provided the seed is in the configuration of the client; the last one provided no authentication method is configured for registration), C128_made_again (handlers made with the same arguments meet its hypotheses). Violated: C128_given_seed_violated (hash_seed given to the handler has no effect: the addresses are random), C128_given_sessions_violated (state_db given to the handler has no effect)."
  }
 ]
}