# Axioms of the property theorems

Output of `#print axioms` for every theorem in MANIFEST.json, grouped.

## Classical.choice, Quot.sound, propext

* `Rsasl.C03_priority`
* `Rsasl.C04_no_shared`
* `Rsasl.C05_available_start`
* `Rsasl.C05_no_shared`
* `Rsasl.C05_start`
* `Rsasl.C07_round_trip`
* `Rsasl.C08_unambiguous`
* `Rsasl.C09_accepts`
* `Rsasl.C09_rejects`
* `Rsasl.C100_authzid`
* `Rsasl.C100_config`
* `Rsasl.C100_line`
* `Rsasl.C100_session`
* `Rsasl.C100_undefined`
* `Rsasl.C103_anonymous`
* `Rsasl.C103_external`
* `Rsasl.C103_login`
* `Rsasl.C103_oauthbearer`
* `Rsasl.C103_plain`
* `Rsasl.C103_xoauth2`
* `Rsasl.C104_client_first`
* `Rsasl.C104_client_second`
* `Rsasl.C104_server_first`
* `Rsasl.C105_anonymous`
* `Rsasl.C105_external`
* `Rsasl.C105_login`
* `Rsasl.C105_oauthbearer`
* `Rsasl.C105_plain`
* `Rsasl.C105_scram`
* `Rsasl.C105_validate`
* `Rsasl.C105_xoauth2`
* `Rsasl.C106_agree`
* `Rsasl.C106_begins`
* `Rsasl.C106_heading`
* `Rsasl.C107_anonymous`
* `Rsasl.C107_external`
* `Rsasl.C107_login`
* `Rsasl.C107_oauthbearer`
* `Rsasl.C107_plain`
* `Rsasl.C107_xoauth2`
* `Rsasl.C108_oauthbearer`
* `Rsasl.C108_xoauth2`
* `Rsasl.C10_exchange`
* `Rsasl.C10_sequence`
* `Rsasl.C110_blame`
* `Rsasl.C110_missing`
* `Rsasl.C110_step64`
* `Rsasl.C111_ends`
* `Rsasl.C112_report_partial`
* `Rsasl.C113_bounded`
* `Rsasl.C113_gssapi`
* `Rsasl.C114_early_partial`
* `Rsasl.C114_fresh_false`
* `Rsasl.C114_offer`
* `Rsasl.C114_outcome_partial`
* `Rsasl.C114_pieces_partial`
* `Rsasl.C114_send_false`
* `Rsasl.C115_bounded`
* `Rsasl.C115_gssapi`
* `Rsasl.C116_client_partial`
* `Rsasl.C116_false`
* `Rsasl.C116_false_password`
* `Rsasl.C116_json`
* `Rsasl.C116_server`
* `Rsasl.C117_plain_partial`
* `Rsasl.C117_plain_shown`
* `Rsasl.C118_again`
* `Rsasl.C118_same`
* `Rsasl.C118_usable`
* `Rsasl.C119_false_absent`
* `Rsasl.C119_login`
* `Rsasl.C119_partial`
* `Rsasl.C119_plain_partial`
* `Rsasl.C119_scram_partial`
* `Rsasl.C11_anonymous`
* `Rsasl.C11_anonymous_server`
* `Rsasl.C11_external`
* `Rsasl.C11_external_server`
* `Rsasl.C121_bare_partial`
* `Rsasl.C121_no_alarm`
* `Rsasl.C121_partial`
* `Rsasl.C121_plus_partial`
* `Rsasl.C121_shared`
* `Rsasl.C122_server`
* `Rsasl.C123_client`
* `Rsasl.C123_server`
* `Rsasl.C12_exact`
* `Rsasl.C12_partial`
* `Rsasl.C12_separator`
* `Rsasl.C12_server_rejects`
* `Rsasl.C13_client`
* `Rsasl.C13_client_delivers`
* `Rsasl.C13_server_error`
* `Rsasl.C13_server_ok`
* `Rsasl.C14_false`
* `Rsasl.C14_false_token`
* `Rsasl.C14_partial`
* `Rsasl.C15_gssapi_never`
* `Rsasl.C15_oauth_partial`
* `Rsasl.C15_partial`
* `Rsasl.C15_scram_partial`
* `Rsasl.C16_read_later`
* `Rsasl.C16_session`
* `Rsasl.C16_with_evaluated`
* `Rsasl.C18_unanswered_optional`
* `Rsasl.C18_unanswered_required`
* `Rsasl.C21_any_writer`
* `Rsasl.C21_cooperative`
* `Rsasl.C21_resume`
* `Rsasl.C21_resume_completes`
* `Rsasl.C22_interruptions`
* `Rsasl.C22_partial`
* `Rsasl.C22_short_writes`
* `Rsasl.C22_unvectored_partial`
* `Rsasl.C25`
* `Rsasl.C25_decides`
* `Rsasl.C26_partial`
* `Rsasl.C27`
* `Rsasl.C28`
* `Rsasl.C28_refused`
* `Rsasl.C29`
* `Rsasl.C29_client`
* `Rsasl.C29_server`
* `Rsasl.C30_otherwise`
* `Rsasl.C30_partial`
* `Rsasl.C31_covered`
* `Rsasl.C31_missing`
* `Rsasl.C31_tampered`
* `Rsasl.C33_exact`
* `Rsasl.C33_partial`
* `Rsasl.C33_written`
* `Rsasl.C34_client_first`
* `Rsasl.C34_server_first`
* `Rsasl.C35_partial`
* `Rsasl.C35_scram_client_partial`
* `Rsasl.C35_scram_server_partial`
* `Rsasl.C36_exact`
* `Rsasl.C36_partial`
* `Rsasl.C37`
* `Rsasl.C38_consistent`
* `Rsasl.C38_only_after_finished`
* `Rsasl.C42_client_survives`
* `Rsasl.C46_never`
* `Rsasl.C46_runs`
* `Rsasl.C48_client`
* `Rsasl.C48_server_first`
* `Rsasl.C48_server_second`
* `Rsasl.C50_never`
* `Rsasl.C50_partial`
* `Rsasl.C51`
* `Rsasl.C53_client_first_partial`
* `Rsasl.C53_rfc_client_final`
* `Rsasl.C53_rfc_client_first`
* `Rsasl.C53_rfc_server_first_partial`
* `Rsasl.C54_client_first`
* `Rsasl.C54_server_step`
* `Rsasl.C55_client_first`
* `Rsasl.C55_client_keys`
* `Rsasl.C55_client_session`
* `Rsasl.C55_client_step`
* `Rsasl.C55_server_session`
* `Rsasl.C55_server_step`
* `Rsasl.C62`
* `Rsasl.C62_login`
* `Rsasl.C62_plain`
* `Rsasl.C62_scram`
* `Rsasl.C62_start`
* `Rsasl.C63_false`
* `Rsasl.C63_plain_nobody`
* `Rsasl.C63_plain_partial`
* `Rsasl.C63_scram_accepts`
* `Rsasl.C63_scram_only`
* `Rsasl.C64_but_authzid_partial`
* `Rsasl.C64_false_scram`
* `Rsasl.C64_partial`
* `Rsasl.C65_client`
* `Rsasl.C65_server`
* `Rsasl.C66_default_order`
* `Rsasl.C66_no_plaintext`
* `Rsasl.C66_no_sha1`
* `Rsasl.C66_order`
* `Rsasl.C66_plus`
* `Rsasl.C66_tie`
* `Rsasl.C67_client`
* `Rsasl.C67_early`
* `Rsasl.C67_input`
* `Rsasl.C67_missing`
* `Rsasl.C67_mutual`
* `Rsasl.C67_noValue`
* `Rsasl.C67_outcome`
* `Rsasl.C67_server`
* `Rsasl.C67_unused`
* `Rsasl.C68_client`
* `Rsasl.C68_no_loss`
* `Rsasl.C68_no_loss64`
* `Rsasl.C68_server`
* `Rsasl.C69_client_partial`
* `Rsasl.C69_gssapi_server_partial`
* `Rsasl.C69_refusing_server_partial`
* `Rsasl.C69_scram_client_partial`
* `Rsasl.C69_server_partial`
* `Rsasl.C71`
* `Rsasl.C71_exchange`
* `Rsasl.C71_mismatch`
* `Rsasl.C71_start`
* `Rsasl.C72`
* `Rsasl.C72_oauth`
* `Rsasl.C73`
* `Rsasl.C73_calls`
* `Rsasl.C73_partial`
* `Rsasl.C73_total`
* `Rsasl.C73_whole`
* `Rsasl.C73_write_all`
* `Rsasl.C73_write_all_vectored`
* `Rsasl.C74_client_determined`
* `Rsasl.C74_client_mech`
* `Rsasl.C74_client_prints`
* `Rsasl.C74_client_server`
* `Rsasl.C74_debug`
* `Rsasl.C74_dialogue`
* `Rsasl.C74_display`
* `Rsasl.C74_false`
* `Rsasl.C74_login`
* `Rsasl.C74_name_only`
* `Rsasl.C74_ok`
* `Rsasl.C74_partial`
* `Rsasl.C74_plain`
* `Rsasl.C74_space`
* `Rsasl.C74_trim`
* `Rsasl.C74_words`
* `Rsasl.C75_diverges`
* `Rsasl.C75_exact`
* `Rsasl.C75_false`
* `Rsasl.C75_partial`
* `Rsasl.C76_client_first`
* `Rsasl.C76_client_first_total`
* `Rsasl.C76_server_final`
* `Rsasl.C76_server_total`
* `Rsasl.C78_client`
* `Rsasl.C78_once`
* `Rsasl.C78_server`
* `Rsasl.C78_verifier`
* `Rsasl.C79_client`
* `Rsasl.C79_server`
* `Rsasl.C80_false`
* `Rsasl.C80_known`
* `Rsasl.C80_partial`
* `Rsasl.C80_repeat`
* `Rsasl.C80_told`
* `Rsasl.C80_unknown`
* `Rsasl.C81`
* `Rsasl.C82_finished_partial`
* `Rsasl.C82_gssapi_server_partial`
* `Rsasl.C82_partial`
* `Rsasl.C84_client`
* `Rsasl.C84_order`
* `Rsasl.C84_server`
* `Rsasl.C85_always`
* `Rsasl.C85_client`
* `Rsasl.C85_life`
* `Rsasl.C85_once`
* `Rsasl.C85_server`
* `Rsasl.C85_shows_last`
* `Rsasl.C85_sides`
* `Rsasl.C86_false`
* `Rsasl.C86_never`
* `Rsasl.C86_partial`
* `Rsasl.C86_refused`
* `Rsasl.C86_typed`
* `Rsasl.C87_login`
* `Rsasl.C87_oauthbearer`
* `Rsasl.C87_one`
* `Rsasl.C87_plain`
* `Rsasl.C87_plain_shown`
* `Rsasl.C87_text`
* `Rsasl.C87_xoauth2`
* `Rsasl.C88_cbname`
* `Rsasl.C88_eq`
* `Rsasl.C88_mechname`
* `Rsasl.C88_try_from`
* `Rsasl.C88_try_from_bytes`
* `Rsasl.C88_unchecked`
* `Rsasl.C89`
* `Rsasl.C89_never_partial`
* `Rsasl.C89_refused`
* `Rsasl.C89_scram`
* `Rsasl.C89_silent_partial`
* `Rsasl.C89_value`
* `Rsasl.C90_apart`
* `Rsasl.C90_draws`
* `Rsasl.C91_ends`
* `Rsasl.C91_input`
* `Rsasl.C91_panic`
* `Rsasl.C91_plain`
* `Rsasl.C92_partial`
* `Rsasl.C92_unvectored_partial`
* `Rsasl.C94_client`
* `Rsasl.C94_server`
* `Rsasl.C95`
* `Rsasl.C95_client`
* `Rsasl.C95_first`
* `Rsasl.C95_server`
* `Rsasl.C95_so_far`
* `Rsasl.C96_chosen`
* `Rsasl.C96_client`
* `Rsasl.C96_debug`
* `Rsasl.C96_display`
* `Rsasl.C96_mechname`
* `Rsasl.C96_server`
* `Rsasl.C97_completes`
* `Rsasl.C97_empty_first`
* `Rsasl.C97_every_order`
* `Rsasl.C97_login`
* `Rsasl.C97_order`
* `Rsasl.C97_outcome`
* `Rsasl.C97_passes`
* `Rsasl.C97_plain`
* `Rsasl.C97_scram`
* `Rsasl.C97_unwraps`
* `Rsasl.C98_client_all`
* `Rsasl.C98_server`
* `Rsasl.C98_server_all`
* `Rsasl.Gssapi.C101_objection`
* `Rsasl.Gssapi.C101_server`
* `Rsasl.Gssapi.C101_server_begins`
* `Rsasl.Gssapi.C109_each_way`
* `Rsasl.Gssapi.C109_one_way`
* `Rsasl.Gssapi.C39_any_partial`
* `Rsasl.Gssapi.C39_partial`
* `Rsasl.Gssapi.C40_any_partial`
* `Rsasl.Gssapi.C40_nothing`
* `Rsasl.Gssapi.C40_partial`
* `Rsasl.Gssapi.C40_strongest`
* `Rsasl.Gssapi.C41_partial`
* `Rsasl.Gssapi.C57`
* `Rsasl.Gssapi.C57_single`
* `Rsasl.Gssapi.C58`
* `Rsasl.Gssapi.C59_offered_partial`
* `Rsasl.Gssapi.C59_partial`
* `Rsasl.Interop.C74_error_line`
* `Rsasl.OAuthBearer.C14_exact`
* `Rsasl.OAuthBearer.C14_token_never`
* `Rsasl.OAuthBearer.C52_accepts`
* `Rsasl.OAuthBearer.C52_parse`
* `Rsasl.OAuthBearer.C52_rejects`
* `Rsasl.OAuthBearer.C60_false`
* `Rsasl.OAuthBearer.C60_false_escaped`
* `Rsasl.OAuthBearer.C60_partial`
* `Rsasl.OAuthBearer.C60_server`
* `Rsasl.OAuthBearer.C60_server_ok`
* `Rsasl.OAuthBearer.C87_oauthbearer_parse`
* `Rsasl.Scram.C45`
* `Rsasl.Scram.C45_keys`
* `Rsasl.Scram.C45_order`
* `Rsasl.Scram.C61_partial`
* `Rsasl.Scram.C77_client_first`
* `Rsasl.Scram.C77_steps`
* `Rsasl.Scram.C77_unique`
* `Rsasl.Scram.C83_client_final`
* `Rsasl.Scram.C83_client_first`
* `Rsasl.Scram.C83_client_partial`
* `Rsasl.Scram.C83_server_final`
* `Rsasl.Scram.C83_server_first`
* `Rsasl.Scram.C83_server_partial`
* `Rsasl.SerdeJson.C102_client`
* `Rsasl.SerdeJson.C102_escaped`
* `Rsasl.SerdeJson.C102_exchange`
* `Rsasl.SerdeJson.C102_one`
* `Rsasl.SerdeJson.C102_reads`
* `Rsasl.SerdeJson.C102_refuses`
* `Rsasl.SerdeJson.C102_serde`
* `Rsasl.SerdeJson.C102_unescaped`
* `Rsasl.XOAuth2.C87_xoauth2_parse`

## Quot.sound

* `Rsasl.C105_finishes_after_error`

## Quot.sound, propext

* `Rsasl.C01_parse_invalid`
* `Rsasl.C01_parse_ok`
* `Rsasl.C01_parse_too_short`
* `Rsasl.C02_no_channel_binding_partial`
* `Rsasl.C02_partial`
* `Rsasl.C02_plus_registered_partial`
* `Rsasl.C03_offer_order`
* `Rsasl.C04_last`
* `Rsasl.C04_panic`
* `Rsasl.C04_panics`
* `Rsasl.C04_veto`
* `Rsasl.C06_mechanisms`
* `Rsasl.C100_channel_binding_untold`
* `Rsasl.C100_credentials`
* `Rsasl.C100_shipped`
* `Rsasl.C104_client_last`
* `Rsasl.C106_same_keys`
* `Rsasl.C108_action`
* `Rsasl.C108_oauthbearer_client`
* `Rsasl.C108_xoauth2_client`
* `Rsasl.C111_client`
* `Rsasl.C112_quoted`
* `Rsasl.C112_utf8_words`
* `Rsasl.C113_login_again`
* `Rsasl.C114_offer_false`
* `Rsasl.C114_recv_false`
* `Rsasl.C114_send_partial`
* `Rsasl.C114_server`
* `Rsasl.C116_step64`
* `Rsasl.C117_false`
* `Rsasl.C119_false_name`
* `Rsasl.C119_false_spelling`
* `Rsasl.C120_cut_partial`
* `Rsasl.C120_more_partial`
* `Rsasl.C120_unknown`
* `Rsasl.C122_more`
* `Rsasl.C122_order`
* `Rsasl.C122_unused`
* `Rsasl.C123_plus_needed`
* `Rsasl.C124`
* `Rsasl.C124_accepted`
* `Rsasl.C124_never`
* `Rsasl.C12_false`
* `Rsasl.C15_false_gssapi`
* `Rsasl.C15_false_scram`
* `Rsasl.C16_first_wins`
* `Rsasl.C16_with_not_evaluated`
* `Rsasl.C17_answered_partial`
* `Rsasl.C17_exact`
* `Rsasl.C17_first_answer`
* `Rsasl.C17_gets_through`
* `Rsasl.C18_answered`
* `Rsasl.C18_early_return_hidden`
* `Rsasl.C18_required_ok`
* `Rsasl.C19_action`
* `Rsasl.C19_exact`
* `Rsasl.C19_taken`
* `Rsasl.C20_getRef_none`
* `Rsasl.C20_getRef_some`
* `Rsasl.C22_swallow_false`
* `Rsasl.C22_zero_false`
* `Rsasl.C23_refused`
* `Rsasl.C23_step64`
* `Rsasl.C23_step64_none`
* `Rsasl.C24_canonical`
* `Rsasl.C24_decode_encode`
* `Rsasl.C24_no_aliases`
* `Rsasl.C24_rfc4648`
* `Rsasl.C26_exact`
* `Rsasl.C26_false`
* `Rsasl.C30_false`
* `Rsasl.C33_false`
* `Rsasl.C34_client_final`
* `Rsasl.C34_server_final`
* `Rsasl.C35_false_cached`
* `Rsasl.C35_false_client`
* `Rsasl.C35_false_server`
* `Rsasl.C36_false_gssapi`
* `Rsasl.C36_false_scram`
* `Rsasl.C36_false_scram_client`
* `Rsasl.C38_only_gssapi`
* `Rsasl.C42`
* `Rsasl.C42_server_survives`
* `Rsasl.C43_missing`
* `Rsasl.C47_interleaving`
* `Rsasl.C49`
* `Rsasl.C49_unknown`
* `Rsasl.C50_false`
* `Rsasl.C53_client_final_partial`
* `Rsasl.C53_server_final_false`
* `Rsasl.C53_server_final_partial`
* `Rsasl.C53_server_first_false`
* `Rsasl.C53_server_first_partial`
* `Rsasl.C54_client_final`
* `Rsasl.C54_client_step`
* `Rsasl.C54_server_final_step`
* `Rsasl.C54_server_first`
* `Rsasl.C55_client_final`
* `Rsasl.C55_server_final`
* `Rsasl.C55_server_first`
* `Rsasl.C55_steps`
* `Rsasl.C62_started`
* `Rsasl.C63_verdict`
* `Rsasl.C64_false`
* `Rsasl.C64_false_oauthbearer`
* `Rsasl.C66_starts`
* `Rsasl.C67_layer`
* `Rsasl.C68_empty`
* `Rsasl.C69_false_done`
* `Rsasl.C69_false_gssapi`
* `Rsasl.C69_false_gssapi_server`
* `Rsasl.C69_false_login`
* `Rsasl.C69_false_takes`
* `Rsasl.C70_action`
* `Rsasl.C70_actionable`
* `Rsasl.C70_get_ref`
* `Rsasl.C70_maybe_need_with`
* `Rsasl.C70_provide`
* `Rsasl.C70_satisfiable`
* `Rsasl.C70_validate`
* `Rsasl.C71_missing`
* `Rsasl.C71_no_data`
* `Rsasl.C73_drop_false`
* `Rsasl.C73_short_false`
* `Rsasl.C74_key_length`
* `Rsasl.C74_lines`
* `Rsasl.C76_client_final`
* `Rsasl.C82_false`
* `Rsasl.C82_false_again`
* `Rsasl.C82_false_client`
* `Rsasl.C82_false_gssapi_server`
* `Rsasl.C82_false_guess`
* `Rsasl.C83_false`
* `Rsasl.C83_false_base64`
* `Rsasl.C83_false_flag`
* `Rsasl.C83_false_hash`
* `Rsasl.C84_credentials`
* `Rsasl.C84_false`
* `Rsasl.C84_none`
* `Rsasl.C84_partial`
* `Rsasl.C84_static`
* `Rsasl.C84_static_shipped`
* `Rsasl.C84_unoffered`
* `Rsasl.C85_tight`
* `Rsasl.C88_constants`
* `Rsasl.C89_never_false`
* `Rsasl.C89_silent_false`
* `Rsasl.C90_chars_partial`
* `Rsasl.C90_differ`
* `Rsasl.C91_calls`
* `Rsasl.C91_gssapi`
* `Rsasl.C92_swallow_false`
* `Rsasl.C92_zero_false`
* `Rsasl.C94_layer`
* `Rsasl.C96_variant`
* `Rsasl.C97_verdict`
* `Rsasl.C98_client`
* `Rsasl.C98_client_cb`
* `Rsasl.C98_own`
* `Rsasl.C98_panics`
* `Rsasl.C98_selects`
* `Rsasl.C98_shipped`
* `Rsasl.C99_default`
* `Rsasl.C99_honest`
* `Rsasl.C99_only_picks`
* `Rsasl.C99_picked`
* `Rsasl.C99_refines`
* `Rsasl.Gssapi.C101_client`
* `Rsasl.Gssapi.C101_client_begins`
* `Rsasl.Gssapi.C101_server_offers`
* `Rsasl.Gssapi.C101_server_unique`
* `Rsasl.Gssapi.C39_false`
* `Rsasl.Gssapi.C39_layer_finished`
* `Rsasl.Gssapi.C40_false`
* `Rsasl.Gssapi.C41_false`
* `Rsasl.Gssapi.C41_never`
* `Rsasl.Gssapi.C59_false`
* `Rsasl.Gssapi.C93_client`
* `Rsasl.Gssapi.C93_server`
* `Rsasl.OAuthBearer.C60_client`
* `Rsasl.Scram.C44`
* `Rsasl.Scram.C61_false`
* `Rsasl.Scram.C77_client_final`
* `Rsasl.Scram.C77_server_first`
* `Rsasl.Scram.C83_client_initial`

## none

* `Rsasl.C100_credentials_config`
* `Rsasl.C112_oauth_words`
* `Rsasl.C16_read_once`
* `Rsasl.C16_read_only`
* `Rsasl.C17_other_property`
* `Rsasl.C36_as_if_never_called`
* `Rsasl.C49_names`
* `Rsasl.C66_priorities`
* `Rsasl.C66_registrations`
* `Rsasl.C74_unset`
* `Rsasl.C84_builder`
* `Rsasl.C84_credentials_full`
* `Rsasl.C87_unused`
* `Rsasl.C98_config`
* `Rsasl.C98_test_panics`
* `Rsasl.C98_undocumented`

## propext

* `Rsasl.C02_false`
* `Rsasl.C05_available`
* `Rsasl.C06_callback`
* `Rsasl.C100_sasl`
* `Rsasl.C105_errored`
* `Rsasl.C108_apart`
* `Rsasl.C108_done`
* `Rsasl.C10_done`
* `Rsasl.C112_debug_words`
* `Rsasl.C112_oauth_false`
* `Rsasl.C112_words`
* `Rsasl.C115_plain_again`
* `Rsasl.C120_default`
* `Rsasl.C120_false`
* `Rsasl.C121_false`
* `Rsasl.C122_tie`
* `Rsasl.C13_client_done`
* `Rsasl.C14_false_authzid`
* `Rsasl.C14_false_kv`
* `Rsasl.C15_false_xoauth2`
* `Rsasl.C17_reevaluates`
* `Rsasl.C17_stays_answered_false`
* `Rsasl.C18_required`
* `Rsasl.C20_getMut_none`
* `Rsasl.C32_form`
* `Rsasl.C32_iff`
* `Rsasl.C32_injective`
* `Rsasl.C32_iterator`
* `Rsasl.C32_plain`
* `Rsasl.C32_rfc`
* `Rsasl.C43_exact`
* `Rsasl.C43_protocol_first`
* `Rsasl.C43_then_callback`
* `Rsasl.C53_authzid_false`
* `Rsasl.C53_client_first_false`
* `Rsasl.C66_default`
* `Rsasl.C67_step64`
* `Rsasl.C68_has_sent`
* `Rsasl.C70_cast`
* `Rsasl.C70_get_mut`
* `Rsasl.C70_ids_needed`
* `Rsasl.C70_is_actionable`
* `Rsasl.C70_is_satisfiable`
* `Rsasl.C70_offers`
* `Rsasl.C70_offers_mut`
* `Rsasl.C70_safe`
* `Rsasl.C71_sha1`
* `Rsasl.C71_this_cb`
* `Rsasl.C72_good_token`
* `Rsasl.C72_reason_needed`
* `Rsasl.C74_ambiguous`
* `Rsasl.C74_client_sends`
* `Rsasl.C74_names`
* `Rsasl.C84_once`
* `Rsasl.C85_again`
* `Rsasl.C86_selection`
* `Rsasl.C90_chars_false`
* `Rsasl.C91_primer`
* `Rsasl.C96_refusal`
* `Rsasl.C96_tells`
* `Rsasl.C97_variables`
* `Rsasl.C99_matches`
* `Rsasl.C99_scram_dishonest`
* `Rsasl.Gssapi.C101_begins_unique`
* `Rsasl.Gssapi.C101_client_unique`
* `Rsasl.Gssapi.C101_offers_unique`
* `Rsasl.Gssapi.C56`
* `Rsasl.Gssapi.C93_client_unique`
* `Rsasl.Gssapi.C93_server_unique`
* `Rsasl.Scram.C77_server_final`
* `Rsasl.SerdeJson.C102_pieces`
