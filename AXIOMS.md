# Axioms of the claim theorems

Made by tools/report.py from `#print axioms`.

## no axioms (22)

* Opcua.C04_wire_layout
* Opcua.Writer.C16_writeAt_refused
* Opcua.C20_server_fails
* Opcua.Psha.C28_agreement
* Opcua.Session.C36_unactivated_deleted_fails
* Opcua.Session.C36_foreign_refresh_fails
* Opcua.Session.C37_refused
* Opcua.Subscription.C44_reuse_fails
* Opcua.Subscription.C45_republish_removes_fails
* Opcua.Subscription.C48_not_consecutive_fails
* Opcua.AddressSpace.C62_diamond_fails
* Opcua.Browse.C64_permission_fails
* Opcua.Access.C67_order_fails
* Opcua.Session.C81_takeover_fails
* Opcua.Session.C81_unsecured_fails
* Opcua.NodeSet.C98_displayName_fails
* Opcua.Diagnostics.C108_race_fails
* Opcua.MultiState.C112_race_fails
* Opcua.MultiState.C113_subtype_fails
* Opcua.MultiState.C113_hidden_fails
* Opcua.Options.C120_nilFunc_fails
* Opcua.Disclosure.C144_hidden_fails

## propext (116)

* Opcua.C01_bool_roundtrip
* Opcua.C04_guid_roundtrip
* Opcua.C05_null_guid
* Opcua.C19_no_colon
* Opcua.C19_large_prefix_fails
* Opcua.C20_standard_fails
* Opcua.C20_unknown_uri
* Opcua.C20_full_table_fails
* Opcua.Counter.C26_interleaving
* Opcua.Channel.C30_send_size_partial
* Opcua.Channel.C32_replay_fails
* Opcua.Frame.C34_wrap_fails
* Opcua.SubTable.C46_late_keep_alive_fails
* Opcua.SubTable.C49_items_fails
* Opcua.EventFilter.C58_operator_fails
* Opcua.EventFilter.C58_conversion_fails
* Opcua.EventFilter.C58_time_fails
* Opcua.EventFilter.C58_inherited_fails
* Opcua.EventFilter.C58_panic_fails
* Opcua.EventFilter.C58_endless_fails
* Opcua.AddressSpace.C59_late_fails
* Opcua.AddressSpace.C59_replaced_fails
* Opcua.AddressSpace.C60_refused
* Opcua.AddressSpace.C61_long_fails
* Opcua.AddressSpace.C61_multiple_fails
* Opcua.Browse.C64_first_fails
* Opcua.Access.C66_history_fails
* Opcua.Access.C67_break_fails
* Opcua.Access.C67_connection_fails
* Opcua.Write.C68_stored
* Opcua.Write.C68_frame
* Opcua.Write.C68_matrix_fails
* Opcua.Write.C68_struct_fails
* Opcua.Range.C69_scalar
* Opcua.Batch.C71_refused
* Opcua.Batch.C71_taken
* Opcua.Pending.C78_deadline_partial
* Opcua.Pending.C78_deadline_value_partial
* Opcua.Pending.C78_reachable_fails
* Opcua.TokenRace.C79_client_partial
* Opcua.PublishQueue.C80_no_hint_fails
* Opcua.PublishQueue.C80_clock_skew_fails
* Opcua.Diagnostics.C84_array_fails
* Opcua.SubCrash.C84_race_fails
* Opcua.SubCrash.C84_foreign_fails
* Opcua.SubCrash.C84_shutdown_fails
* Opcua.AddressSpace.C89_second_fails
* Opcua.AddressSpace.C90_cycle_fails
* Opcua.Call.C95_handles
* Opcua.Call.C95_object_fails
* Opcua.Certificate.C97_none_fails
* Opcua.NodeSet.C98_table
* Opcua.NodeSet.C98_distinct
* Opcua.NodeSet.C98_portable
* Opcua.NodeSet.C98_displayName_partial
* Opcua.NodeSet.C98_displayNameText
* Opcua.NodeSet.C98_forward_fails
* Opcua.NodeSet.C99_rank_fails
* Opcua.Dial.C100_call
* Opcua.Dial.C100_key_fails
* Opcua.Dial.C100_type_fails
* Opcua.Dial.C100_table_fails
* Opcua.Dial.C100_mode_fails
* Opcua.Dial.C100_size_fails
* Opcua.Dial.C100_password_fails
* Opcua.Dial.C101_race_fails
* Opcua.Dial.C101_header_fails
* Opcua.Dial.C101_tables_fails
* Opcua.Dial.C102_discovery_partial
* Opcua.Dial.C102_discovery_fails
* Opcua.Dial.C102_close_partial
* Opcua.Dial.C102_closeSession_fails
* Opcua.Dial.C102_closeChannel_fails
* Opcua.ServerLife.C105_twice_fails
* Opcua.ServerLife.C105_closeFirst_fails
* Opcua.ServerLife.C105_fatal_fails
* Opcua.Diagnostics.C107_right_partial
* Opcua.Diagnostics.C108_rejected_fails
* Opcua.Structs.C109_flags_fails
* Opcua.MultiState.C113_behavior_partial
* Opcua.Discovery.C114_race_fails
* Opcua.SelfInfo.C115_crash_fails
* Opcua.SelfInfo.C115_session_arrays_fails
* Opcua.History.C116_order_fails
* Opcua.History.C116_error_fails
* Opcua.History.C116_source_time_fails
* Opcua.Attributes.C117_hidden
* Opcua.Attributes.C117_no_session
* Opcua.Attributes.C117_type_value_fails
* Opcua.Suites.C118_profile
* Opcua.Suites.C118_signatures
* Opcua.Suites.C118_passwords
* Opcua.Suites.C118_nonce_fails
* Opcua.Suites.C118_issued_fails
* Opcua.Options.C120_files_taken
* Opcua.Options.C120_unreadable
* Opcua.Options.C120_otherKey_fails
* Opcua.Options.C120_serverChecks
* Opcua.Options.C120_serverRest
* Opcua.Ending.C121_openTold
* Opcua.Ending.C121_discoveryTold
* Opcua.Ending.C121_tooLarge_fails
* Opcua.Ending.C121_silent_fails
* Opcua.Ending.C121_ended_partial
* Opcua.Ending.C121_later_partial
* Opcua.Ending.C121_oneByOne_fails
* Opcua.CertList.C122_stranger_fails
* Opcua.CertList.C122_nil_partial
* Opcua.Secrecy.C137_hijacked_fails
* Opcua.Secrecy.C138_forged_fails
* Opcua.Picture.C142_dangling_fails
* Opcua.Deletion.C145_type_fails
* Opcua.Deletion.C145_shared_fails
* Opcua.Deletion.C145_standard_fails
* Opcua.Deletion.C145_events_fails
* Opcua.Deletion.C145_circle_fails

## propext Classical.choice Quot.sound (459)

* Opcua.C01_fixed_width_roundtrip
* Opcua.C01_int32_roundtrip
* Opcua.C02_string_roundtrip
* Opcua.C02_bytestring_roundtrip
* Opcua.C02_bytearray_roundtrip
* Opcua.C02_null_and_empty
* Opcua.C02_short_input_rejected
* Opcua.C03_in_range
* Opcua.C03_before_range_clamped
* Opcua.C03_after_range_clamped_partial
* Opcua.C03_after_range_fails
* Opcua.C03_monotone
* Opcua.C05_nodeid_roundtrip
* Opcua.C05_null_reads_nil
* Opcua.C06_expanded_roundtrip
* Opcua.C07_qualifiedname_roundtrip
* Opcua.C07_localizedtext_roundtrip
* Opcua.C08_variant_roundtrip
* Opcua.C08_variant_roundtrip_lossy
* Opcua.C09_datavalue_roundtrip
* Opcua.C09_timestamp_truncation
* Opcua.C10_matrix_roundtrip
* Opcua.C10_cube_roundtrip_partial
* Opcua.C10_negative_dimension_fails
* Opcua.C11_unknown_type_skipped
* Opcua.C11_xml_body_skipped
* Opcua.C11_registered_roundtrip
* Opcua.C12_struct_roundtrip
* Opcua.C13_truncation_rejected
* Opcua.C13_leaf_truncation_rejected
* Opcua.C14_prefix_free
* Opcua.C14_concatenation
* Opcua.Writer.C16_write_spec
* Opcua.Writer.C16_content_is_concatenation
* Opcua.Writer.C16_writeAt_spec
* Opcua.C17_nodeid_text_roundtrip
* Opcua.C17_null_text
* Opcua.C17_nodeid_text_injective
* Opcua.C18_expanded_text_roundtrip
* Opcua.C19_qname_text_roundtrip
* Opcua.C19_browse_path_roundtrip
* Opcua.StatusCode.C21_classification
* Opcua.StatusCode.C21_exclusive
* Opcua.C22_own_encoding_fails
* Opcua.Channel.C23_chunking
* Opcua.Channel.C23_numbering
* Opcua.Channel.C23_count
* Opcua.Channel.C24_blocks
* Opcua.Channel.C24_unpad
* Opcua.Channel.C24_open_message
* Opcua.Channel.C25_round_trip
* Opcua.Channel.C25_delivers_authenticated
* Opcua.Psha.C28_is_p_hash
* Opcua.Psha.C28_length
* Opcua.Psha.C28_prefix
* Opcua.Psha.C28_roles
* Opcua.Frame.C29_frame
* Opcua.Frame.C29_fragmentation
* Opcua.Frame.C29_two_fragmentations
* Opcua.Frame.C29_refused
* Opcua.Channel.C30_receive_limits
* Opcua.Channel.C30_too_many_chunks
* Opcua.Channel.C30_send_count_partial
* Opcua.Channel.C30_in_part_fails
* Opcua.Channel.C31_plain_request_fails
* Opcua.Channel.C31_foreign_certificate_fails
* Opcua.Channel.C31_symmetric_partial
* Opcua.Channel.C31_open_partial
* Opcua.Frame.C33_read_partial
* Opcua.Pending.C35_own_response
* Opcua.Pending.C35_at_most_once
* Opcua.Pending.C35_delivered
* Opcua.Pending.C35_unknown_dropped
* Opcua.Session.C36_no_effect
* Opcua.Session.C36_close_no_effect
* Opcua.Session.C36_activated
* Opcua.Session.C36_gated
* Opcua.Session.C36_refused_partial
* Opcua.Session.C37_limit
* Opcua.Session.C37_idle_not_served
* Opcua.Session.C37_sweep_keeps
* Opcua.Session.C37_unique
* Opcua.Paging.C39_pages_in_order
* Opcua.Paging.C39_complete
* Opcua.Paging.C39_page_size
* Opcua.Paging.C39_limit
* Opcua.Paging.C39_next_not_refused
* Opcua.Paging.C39_once
* Opcua.Paging.C39_once_status
* Opcua.Paging.C39_stays_open
* Opcua.Paging.C39_follow
* Opcua.Revise.C41_revised_partial
* Opcua.Revise.C41_nan_fails
* Opcua.Revise.C41_expiry_partial
* Opcua.Password.C42_roundtrip_partial
* Opcua.Password.C42_malformed
* Opcua.Password.C42_password_partial
* Opcua.Password.C42_replay_fails
* Opcua.Password.C42_zero_fill_fails
* Opcua.Password.C42_long_fails
* Opcua.Revise.C43_interval
* Opcua.Revise.C43_keep_alive
* Opcua.Revise.C43_lifetime
* Opcua.Revise.C43_revised
* Opcua.Revise.C43_notifications
* Opcua.Subscription.C44_unique_partial
* Opcua.Subscription.C45_available
* Opcua.Subscription.C45_retained_partial
* Opcua.Subscription.C45_republish_partial
* Opcua.SubTable.C46_response_partial
* Opcua.Subscription.C48_not_late
* Opcua.SubTable.C49_own_partial
* Opcua.SubTable.C50_limit
* Opcua.SubTable.C50_ids_partial
* Opcua.SubTable.C50_create_partial
* Opcua.SubTable.C50_delete_partial
* Opcua.MonitoredItem.C51_bound
* Opcua.MonitoredItem.C51_kept
* Opcua.MonitoredItem.C52_never_fails
* Opcua.MonitoredItem.C53_order
* Opcua.MonitoredItem.C53_complete
* Opcua.MonitoredItem.C53_response
* Opcua.DataChange.C53_cycle
* Opcua.DataChange.C54_signed_partial
* Opcua.DataChange.C54_unsigned_partial
* Opcua.DataChange.C54_decrease_partial
* Opcua.DataChange.C54_float_partial
* Opcua.DataChange.C54_float_sound_partial
* Opcua.DataChange.C54_unsigned_fails
* Opcua.DataChange.C54_wrap_fails
* Opcua.DataChange.C54_array_fails
* Opcua.DataChange.C54_array_kept
* Opcua.DataChange.C54_bytes
* Opcua.DataChange.C54_inf_fails
* Opcua.DataChange.C55_test_partial
* Opcua.DataChange.C55_consecutive_partial
* Opcua.DataChange.C55_interval
* Opcua.DataChange.C55_current_partial
* Opcua.DataChange.C55_nan_fails
* Opcua.DataChange.C55_due
* Opcua.DataChange.C55_first
* Opcua.MonitoredItem.C56_count_partial
* Opcua.MonitoredItem.C57_links
* Opcua.MonitoredItem.C57_trigger
* Opcua.MonitoredItem.C57_only
* Opcua.MonitoredItem.C57_published
* Opcua.EventFilter.C58_where_partial
* Opcua.EventFilter.C58_fields_partial
* Opcua.EventFilter.C58_names
* Opcua.EventFilter.C58_activeState
* Opcua.AddressSpace.C62_ends_partial
* Opcua.AddressSpace.C62_count_fails
* Opcua.AddressSpace.C62_subtypes_fails
* Opcua.Browse.C63_exact_partial
* Opcua.Browse.C63_sound
* Opcua.Browse.C63_type
* Opcua.AddressSpace.C65_unique
* Opcua.AddressSpace.C65_stable_partial
* Opcua.AddressSpace.C65_wrap_fails
* Opcua.Access.C66_level
* Opcua.Access.C66_read
* Opcua.Access.C66_readRoles
* Opcua.Access.C66_attributes
* Opcua.Access.C66_hiddenRead
* Opcua.Access.C66_hiddenWrite
* Opcua.Access.C66_write
* Opcua.Access.C66_writeFrame
* Opcua.Access.C66_written
* Opcua.Access.C66_call
* Opcua.Access.C66_callExact
* Opcua.Access.C66_monitor
* Opcua.Access.C66_monitorExact
* Opcua.Access.C67_exact_partial
* Opcua.Access.C67_sound
* Opcua.Access.C67_order_partial
* Opcua.Access.C67_denied
* Opcua.Write.C68_partial
* Opcua.Write.C68_element_fails
* Opcua.Write.C68_range_fails
* Opcua.Range.C69_read_partial
* Opcua.Range.C69_outside
* Opcua.Range.C69_malformed_partial
* Opcua.Range.C69_empty_fails
* Opcua.Range.C69_sign_fails
* Opcua.Range.C69_large_fails
* Opcua.Range.C69_component_fails
* Opcua.Range.C69_readTexts_partial
* Opcua.Range.C69_readByteStrings_partial
* Opcua.Range.C69_write_partial
* Opcua.Range.C69_count
* Opcua.Range.C69_readBack_partial
* Opcua.Range.C69_second_fails
* Opcua.Range.C69_validate_partial
* Opcua.Range.C69_validateGood
* Opcua.Range.C69_validateNoData
* Opcua.Write.C70_partial
* Opcua.Write.C70_null_fails
* Opcua.Write.C70_type_fails
* Opcua.Write.C70_rank_fails
* Opcua.Write.C70_matrix_fails
* Opcua.Write.C70_historian_fails
* Opcua.Batch.C71_answered
* Opcua.Batch.C71_lost_fails
* Opcua.Endpoint.C72_mode_fails
* Opcua.Endpoint.C72_default
* Opcua.DataChange.C73_item_partial
* Opcua.DataChange.C73_modify_fails
* Opcua.C75_extended_body_fails
* Opcua.C75_exact_body_partial
* Opcua.Channel.C76_short_frame_fails
* Opcua.Channel.C76_non_rsa_fails
* Opcua.Channel.C76_padding_fails
* Opcua.Channel.C76_policy_fails
* Opcua.Renewal.C77_serial_renewals_partial
* Opcua.Password.C82_full_exponent_partial
* Opcua.Locks.C83_finish_partial
* Opcua.Locks.C83_queue_fails
* Opcua.ItemLocks.C86_finish_partial
* Opcua.ItemLocks.C86_links_partial
* Opcua.ItemLocks.C86_self_fails
* Opcua.ItemLocks.C86_mutual_fails
* Opcua.ItemLocks.C86_event_fails
* Opcua.ItemLocks.C86_delete_fails
* Opcua.ItemLocks.C86_diagnostics_fails
* Opcua.ItemLocks.C86_cross_fails
* Opcua.ItemLocks.C86_session_fails
* Opcua.ItemLocks.C86_sessionResend_fails
* Opcua.DataChange.C87_partial
* Opcua.DataChange.C87_stale_fails
* Opcua.DataChange.C87_disabled
* Opcua.DataChange.C88_current_partial
* Opcua.DataChange.C88_percent_fails
* Opcua.AddressSpace.C90_lookups_partial
* Opcua.AddressSpace.C90_ends_partial
* Opcua.EventFilter.C91_fields
* Opcua.EventFilter.C91_missing
* Opcua.Endpoint.C92_fails
* Opcua.Endpoint.C93_server
* Opcua.Endpoint.C94_possession
* Opcua.Endpoint.C94_password
* Opcua.Endpoint.C94_login_partial
* Opcua.Endpoint.C94_panic_fails
* Opcua.Endpoint.C94_issued_fails
* Opcua.Endpoint.C94_issuedPolicy_fails
* Opcua.Call.C95_frame
* Opcua.Call.C95_call
* Opcua.DataChange.C95_resend
* Opcua.Certificate.C96_chain
* Opcua.Certificate.C96_trusted
* Opcua.Certificate.C96_unreadable
* Opcua.Certificate.C96_host
* Opcua.Certificate.C96_revocation_partial
* Opcua.Certificate.C96_accepts
* Opcua.Certificate.C96_skipVerify
* Opcua.Certificate.C96_skipOpen
* Opcua.Certificate.C96_open
* Opcua.Certificate.C96_lists_fails
* Opcua.NodeSet.C98_nodes
* Opcua.NodeSet.C98_references
* Opcua.NodeSet.C98_browseName
* Opcua.NodeSet.C99_text_partial
* Opcua.NodeSet.C99_arguments
* Opcua.NodeSet.C99_stored
* Opcua.Dial.C101_sound
* Opcua.PollGroup.C103_revised
* Opcua.PollGroup.C103_period
* Opcua.PollGroup.C103_nan_fails
* Opcua.PollGroup.C103_slow_fails
* Opcua.PollGroup.C103_group_partial
* Opcua.PollGroup.C103_atMost
* Opcua.PollGroup.C103_deleted
* Opcua.PollGroup.C103_tick_partial
* Opcua.PollGroup.C103_overlap_fails
* Opcua.PollGroup.C103_disabled_fails
* Opcua.PollGroup.C104_partial
* Opcua.PollGroup.C104_delete_fails
* Opcua.PollGroup.C104_rate_fails
* Opcua.Diagnostics.C106_sessions
* Opcua.Diagnostics.C106_subscriptions
* Opcua.Diagnostics.C106_nodes_partial
* Opcua.Diagnostics.C108_alone_partial
* Opcua.Structs.C109_layout_partial
* Opcua.Structs.C109_roundtrip_partial
* Opcua.Structs.C110_init
* Opcua.Structs.C110_encoding_partial
* Opcua.Structs.C110_roundtrip_partial
* Opcua.Messages.C111_request
* Opcua.Messages.C111_response
* Opcua.Messages.C111_unknown
* Opcua.MultiState.C112_in_step_partial
* Opcua.MultiState.C112_rounded_fails
* Opcua.MultiState.C113_property_partial
* Opcua.MultiState.C113_component_partial
* Opcua.Discovery.C114_endpoints
* Opcua.Discovery.C114_progress_partial
* Opcua.History.C116_recorded
* Opcua.History.C116_dispatch
* Opcua.Attributes.C117_encoding_fails
* Opcua.Suites.C118_symmetric
* Opcua.Suites.C118_requests
* Opcua.Suites.C118_responses
* Opcua.Suites.C118_key_block
* Opcua.Suites.C118_opening
* Opcua.Suites.C118_key_length_fails
* Opcua.SubCounters.C119_modified
* Opcua.SubCounters.C119_republished
* Opcua.SubCounters.C119_responses
* Opcua.SubCounters.C119_notifications
* Opcua.SubCounters.C119_items
* Opcua.SubCounters.C119_overflow_partial
* Opcua.SubCounters.C119_unacknowledged_partial
* Opcua.SubCounters.C119_next
* Opcua.SubCounters.C119_settings
* Opcua.SubCounters.C119_session_counts
* Opcua.SubCounters.C119_unacknowledged_fails
* Opcua.SubCounters.C119_enabled_fails
* Opcua.SubCounters.C119_discarded_fails
* Opcua.SubCounters.C119_overflow_fails
* Opcua.SubCounters.C119_session_array_fails
* Opcua.SubCounters.C119_security_name_fails
* Opcua.Options.C120_connection_partial
* Opcua.Options.C120_session_partial
* Opcua.Options.C120_checks
* Opcua.Options.C120_wanted
* Opcua.Options.C120_timeoutHint_fails
* Opcua.Options.C120_diagnosticsHint_fails
* Opcua.Options.C120_responseSize_fails
* Opcua.Options.C120_discovery_fails
* Opcua.Options.C120_documented_fails
* Opcua.Options.C120_serverLimits
* Opcua.Ending.C121_answered_partial
* Opcua.Ending.C121_order
* Opcua.Ending.C121_frame
* Opcua.Ending.C121_inPart_fails
* Opcua.Ending.C121_crash_fails
* Opcua.Ending.C121_reason_fails
* Opcua.CertList.C122_set
* Opcua.CertList.C122_parents
* Opcua.CertList.C122_pem
* Opcua.CertList.C122_issuer_partial
* Opcua.CertList.C122_issuer_fails
* Opcua.Names.C123_tell_partial
* Opcua.Names.C123_enum
* Opcua.Names.C123_enum_only
* Opcua.ClientRecv.C124_round_trip
* Opcua.ClientRecv.C124_open_message
* Opcua.ClientRecv.C124_open_plain
* Opcua.ClientRecv.C124_authentic
* Opcua.ClientRecv.C124_forged_fails
* Opcua.ClientRecv.C124_any_token_fails
* Opcua.ClientRecv.C124_mixed_fails
* Opcua.ClientRecv.C124_limits
* Opcua.ClientRecv.C124_crash_fails
* Opcua.ClientRecv.C124_error_fails
* Opcua.Conversation.C125_unbroken
* Opcua.Conversation.C125_in_order
* Opcua.Conversation.C125_own_answer
* Opcua.Conversation.C125_once
* Opcua.Conversation.C125_complete
* Opcua.Conversation.C125_progress
* Opcua.Conversation.C125_server_reads
* Opcua.Conversation.C125_client_reads
* Opcua.Conversation.C125_numbering
* Opcua.PublishFlow.C126_drain
* Opcua.Closing.C127_close
* Opcua.Closing.C127_stays_open
* Opcua.Closing.C127_too_big
* Opcua.Pool.C128_linearizable_partial
* Opcua.Pool.C128_whole
* Opcua.Pool.C128_fresh_partial
* Opcua.Pool.C128_range_fails
* Opcua.Delivery.C129_assembled_partial
* Opcua.Delivery.C129_recover_partial
* Opcua.Authority.C130_apart
* Opcua.Authority.C130_authority_partial
* Opcua.Authority.C130_noise
* Opcua.Authority.C130_injected_fails
* Opcua.Authority.C130_replay_fails
* Opcua.Authority.C130_hijacked_fails
* Opcua.Authority.C130_obeyed
* Opcua.Alarms.C131_order_partial
* Opcua.Alarms.C131_delivered_partial
* Opcua.Alarms.C131_serving_partial
* Opcua.Alarms.C131_burst_fails
* Opcua.Alarms.C131_changed
* Opcua.Watch.C132_last_partial
* Opcua.Watch.C132_band_partial
* Opcua.Watch.C132_asked_partial
* Opcua.Watch.C132_soon_partial
* Opcua.Watch.C132_shrunk_fails
* Opcua.Watch.C132_ahead_fails
* Opcua.PublishTimer.C133_timer
* Opcua.PublishTimer.C133_gone
* Opcua.PublishTimer.C133_enabled
* Opcua.PublishTimer.C133_often_partial
* Opcua.PublishTimer.C133_seldom
* Opcua.PublishTimer.C133_fraction_fails
* Opcua.PublishTimer.C133_stale_fails
* Opcua.SessionEnd.C134_deleted
* Opcua.SessionEnd.C134_orphans
* Opcua.SessionEnd.C134_lives
* Opcua.SessionEnd.C134_points
* Opcua.SessionEnd.C134_expires
* Opcua.Delivery.C135_order
* Opcua.Watch.C135_watched
* Opcua.Watch.C135_arriving
* Opcua.Answer.C136_progress
* Opcua.Answer.C136_room
* Opcua.Answer.C136_answers_partial
* Opcua.Answer.C136_as_sent
* Opcua.Answer.C136_numbers
* Opcua.Answer.C136_first_fails
* Opcua.Answer.C136_policy_fails
* Opcua.Answer.C136_renewal_fails
* Opcua.Secrecy.C138_client_partial
* Opcua.Workers.C139_answers
* Opcua.Workers.C139_order
* Opcua.Workers.C139_finish
* Opcua.Workers.C139_direct
* Opcua.Workers.C139_shared_fails
* Opcua.Workers.C139_own_fails
* Opcua.Kept.C140_bounded
* Opcua.Kept.C140_silence
* Opcua.Kept.C140_total_partial
* Opcua.Kept.C140_groups_partial
* Opcua.Kept.C140_room
* Opcua.Memory.C141_proportion_partial
* Opcua.Memory.C141_closed_partial
* Opcua.Memory.C141_header_fails
* Opcua.Memory.C141_array_fails
* Opcua.Memory.C141_given_up_fails
* Opcua.Memory.C141_rows_fails
* Opcua.Memory.C141_cubes_fails
* Opcua.Picture.C142_described
* Opcua.Picture.C142_exists_partial
* Opcua.Picture.C142_type_partial
* Opcua.Picture.C142_path_partial
* Opcua.ItemBook.C143_settings_partial
* Opcua.ItemBook.C143_handles_partial
* Opcua.ItemBook.C143_notified_partial
* Opcua.Disclosure.C144_blind_partial
* Opcua.Deletion.C145_gone
* Opcua.Deletion.C145_only
* Opcua.SubBook.C146_has_partial
* Opcua.SubBook.C146_only_partial
* Opcua.SubBook.C146_news_partial
* Opcua.SubBook.C146_sweep_partial
* Opcua.SubBook.C146_refused
* Opcua.SubBook.C146_modes_partial
* Opcua.SubBook.C146_deleted_partial
* Opcua.SubBook.C146_left_fails
* Opcua.SubBook.C146_wrap_fails
* Opcua.SendOn.C147_sent_on_partial
* Opcua.SendOn.C147_hops_partial
* Opcua.SendOn.C147_plain
* Opcua.Room.C148_no_longer_partial
* Opcua.Room.C148_no_longer
* Opcua.Room.C148_five_times
* Opcua.Room.C148_shortest_partial

## propext Quot.sound (348)

* Opcua.C01_little_endian
* Opcua.C05_two_byte_form_iff
* Opcua.C06_nil_nodeid_fails
* Opcua.C07_mask_exact
* Opcua.C08_type_tag_distinguishes
* Opcua.C09_unset
* Opcua.C09_alignment_fails
* Opcua.C10_empty
* Opcua.C10_empty_rows_shape_fails
* Opcua.C10_inconsistent_dimensions_fails
* Opcua.C10_consistent_dimensions_partial
* Opcua.C11_declared_length
* Opcua.C12_guid_field_fails
* Opcua.C12_result_independent_of_stack
* Opcua.C13_datavalue_boundary
* Opcua.Registry.C15_registry_bijection
* Opcua.Registry.C15_register_outcome
* Opcua.Registry.C15_registrations_permanent
* Opcua.Writer.C16_never_exceeds_buffer
* Opcua.C17_accepted_texts
* Opcua.C18_accepted_texts
* Opcua.C18_nil_text
* Opcua.C19_nonnumeric_prefix_partial
* Opcua.C20_distinct
* Opcua.C20_forth_partial
* Opcua.C20_translate_inverse
* Opcua.C20_expanded_form
* Opcua.C20_translate_between_tables
* Opcua.StatusCode.C21_changed
* Opcua.StatusCode.C21_overflow
* Opcua.StatusCode.C21_set_overflow
* Opcua.C22_symbolic_id_fails
* Opcua.C22_empty_mask_partial
* Opcua.C22_empty_roundtrip_partial
* Opcua.Channel.C23_no_room
* Opcua.Channel.C25_authentic
* Opcua.Channel.C25_tampered
* Opcua.Counter.C26_nonzero
* Opcua.Counter.C26_consecutive
* Opcua.Counter.C26_distinct
* Opcua.Counter.C26_period
* Opcua.Channel.C27_current_or_pending
* Opcua.Channel.C27_frame_refused
* Opcua.Channel.C27_old_token_dead
* Opcua.Channel.C27_reachable
* Opcua.Channel.C27_keys_of_token
* Opcua.Channel.C27_token_zero_fails
* Opcua.Channel.C30_partial_response_fails
* Opcua.Channel.C32_old_token_partial
* Opcua.Frame.C33_minimum
* Opcua.Frame.C33_tiny_buffer_fails
* Opcua.Frame.C34_revised
* Opcua.Frame.C34_renewal_partial
* Opcua.Frame.C34_own_server
* Opcua.Session.C36_other_events
* Opcua.Session.C36_status
* Opcua.Session.C37_sweep_removes
* Opcua.PublishQueue.C38_conserved
* Opcua.PublishQueue.C38_in_order
* Opcua.PublishQueue.C38_at_most_once
* Opcua.PublishQueue.C38_bounded
* Opcua.PublishQueue.C38_eviction
* Opcua.PublishQueue.C38_delete_fails
* Opcua.PublishQueue.C38_hang_fails
* Opcua.Paging.C39_refused
* Opcua.Paging.C40_short_fails
* Opcua.Paging.C40_answered_partial
* Opcua.Password.C42_algorithm
* Opcua.Subscription.C44_consecutive
* Opcua.Subscription.C44_keep_alive
* Opcua.Subscription.C44_status_change
* Opcua.Subscription.C45_bound
* Opcua.SubTable.C46_results
* Opcua.SubTable.C46_release
* Opcua.Subscription.C47_first
* Opcua.Subscription.C47_timely
* Opcua.Subscription.C47_sparing
* Opcua.Subscription.C48_not_early_partial
* Opcua.Subscription.C48_below_limit
* Opcua.SubTable.C49_acks_fails
* Opcua.SubTable.C50_wrap_fails
* Opcua.MonitoredItem.C51_resize
* Opcua.MonitoredItem.C52_lost_fails
* Opcua.MonitoredItem.C56_underflow_fails
* Opcua.AddressSpace.C59_symmetric_partial
* Opcua.AddressSpace.C59_deleted_partial
* Opcua.AddressSpace.C59_noDuplicates
* Opcua.AddressSpace.C60_standard
* Opcua.AddressSpace.C61_sound
* Opcua.AddressSpace.C61_exact_partial
* Opcua.AddressSpace.C62_cycle_fails
* Opcua.AddressSpace.C62_found
* Opcua.AddressSpace.C62_kinds
* Opcua.AddressSpace.C62_once_partial
* Opcua.AddressSpace.C62_count_partial
* Opcua.Browse.C63_hidden
* Opcua.Browse.C63_dangling_fails
* Opcua.Browse.C64_sound_partial
* Opcua.Browse.C64_complete_partial
* Opcua.Browse.C64_none
* Opcua.Write.C68_accepted_partial
* Opcua.Write.C68_refused
* Opcua.Write.C70_whole
* Opcua.Batch.C71_inPlace
* Opcua.Batch.C71_alone_partial
* Opcua.Batch.C71_readOnly
* Opcua.Batch.C71_read
* Opcua.Batch.C71_write_partial
* Opcua.Endpoint.C72_best_partial
* Opcua.Endpoint.C72_none_partial
* Opcua.Endpoint.C72_noCertificate
* Opcua.Endpoint.C72_offered
* Opcua.DataChange.C73_read
* Opcua.C74_plain_types_never_crash_partial
* Opcua.C74_nested_variant_fails
* Opcua.Channel.C76_mode_none
* Opcua.Channel.C76_sign_partial
* Opcua.Renewal.C77_overlap_fails
* Opcua.Renewal.C77_unused_token_fails
* Opcua.Pending.C78_blocked_fails
* Opcua.TokenRace.C79_server_partial
* Opcua.TokenRace.C79_server_fails
* Opcua.TokenRace.C79_client_fails
* Opcua.PublishQueue.C80_timeout_partial
* Opcua.Session.C81_channel_key_partial
* Opcua.Password.C82_short_exponent_fails
* Opcua.Locks.C83_inversion_fails
* Opcua.Locks.C83_outage_fails
* Opcua.Diagnostics.C84_table_partial
* Opcua.SubCrash.C84_orderly_partial
* Opcua.Subscription.C85_disabled
* Opcua.Subscription.C85_enabled
* Opcua.Subscription.C85_late
* Opcua.ItemLocks.C86_resend_fails
* Opcua.AddressSpace.C89_heard
* Opcua.AddressSpace.C89_once
* Opcua.AddressSpace.C89_all_partial
* Opcua.AddressSpace.C89_ends_partial
* Opcua.AddressSpace.C89_cycle_fails
* Opcua.AddressSpace.C90_stale_fails
* Opcua.Endpoint.C92_pinned_partial
* Opcua.Endpoint.C93_sealed_partial
* Opcua.Endpoint.C93_encrypted
* Opcua.Endpoint.C93_fails
* Opcua.Endpoint.C93_signed_fails
* Opcua.Endpoint.C94_vouched
* Opcua.Endpoint.C94_offered
* Opcua.Endpoint.C94_noPanic_partial
* Opcua.Call.C95_arguments
* Opcua.Call.C95_mismatch
* Opcua.Certificate.C96_rejected
* Opcua.Certificate.C96_status
* Opcua.Certificate.C97_uri_partial
* Opcua.Certificate.C97_other_fails
* Opcua.NodeSet.C98_others
* Opcua.NodeSet.C98_outside_fails
* Opcua.NodeSet.C98_malformed_fails
* Opcua.NodeSet.C98_unparsed_fails
* Opcua.NodeSet.C98_element_fails
* Opcua.NodeSet.C99_scalar_partial
* Opcua.NodeSet.C99_array_partial
* Opcua.NodeSet.C99_abstract_partial
* Opcua.NodeSet.C99_typed
* Opcua.NodeSet.C99_enum_partial
* Opcua.NodeSet.C99_nodeId_fails
* Opcua.NodeSet.C99_qualifiedName_fails
* Opcua.NodeSet.C99_subtype_fails
* Opcua.NodeSet.C99_enum_fails
* Opcua.NodeSet.C99_default_fails
* Opcua.NodeSet.C99_extension_fails
* Opcua.Dial.C100_dial_partial
* Opcua.Dial.C101_complete_partial
* Opcua.Dial.C102_dial
* Opcua.ServerLife.C105_once
* Opcua.ServerLife.C105_error
* Opcua.ServerLife.C105_halted_partial
* Opcua.ServerLife.C105_finished
* Opcua.ServerLife.C105_bounded
* Opcua.ServerLife.C105_single_partial
* Opcua.ServerLife.C105_grace
* Opcua.ServerLife.C105_backoff
* Opcua.ServerLife.C105_retry_fails
* Opcua.Diagnostics.C106_disabled
* Opcua.Diagnostics.C106_orphan_fails
* Opcua.Diagnostics.C107_access
* Opcua.Diagnostics.C107_other_fails
* Opcua.Diagnostics.C107_history
* Opcua.Diagnostics.C108_services_partial
* Opcua.Diagnostics.C108_total_partial
* Opcua.Diagnostics.C108_uncounted_fails
* Opcua.Diagnostics.C108_rejected_partial
* Opcua.Diagnostics.C108_security_partial
* Opcua.Diagnostics.C108_bound
* Opcua.Structs.C109_fields_partial
* Opcua.Structs.C109_guid_fails
* Opcua.Structs.C109_enumerations
* Opcua.Structs.C109_enumerated_fields
* Opcua.Structs.C110_program_fails
* Opcua.Structs.C110_missing_fails
* Opcua.Messages.C111_services
* Opcua.Messages.C111_supported
* Opcua.Messages.C111_ids
* Opcua.MultiState.C112_unknown_fails
* Opcua.MultiState.C112_kind_fails
* Opcua.MultiState.C112_range_fails
* Opcua.MultiState.C112_crash_fails
* Opcua.MultiState.C112_no_crash_partial
* Opcua.MultiState.C112_same_value_partial
* Opcua.Discovery.C114_servers
* Opcua.Discovery.C114_session
* Opcua.Discovery.C114_open_partial
* Opcua.Discovery.C114_discovery_partial
* Opcua.Discovery.C114_crash_fails
* Opcua.Discovery.C114_deadlock_fails
* Opcua.SelfInfo.C115_published
* Opcua.SelfInfo.C115_types_partial
* Opcua.SelfInfo.C115_types_fails
* Opcua.SelfInfo.C115_limits_partial
* Opcua.SelfInfo.C115_triggering_fails
* Opcua.SelfInfo.C115_event_history_fails
* Opcua.SelfInfo.C115_zero_limit_fails
* Opcua.SelfInfo.C115_history_fails
* Opcua.SelfInfo.C115_history_partial
* Opcua.History.C116_seen
* Opcua.History.C116_genuine
* Opcua.History.C116_order_partial
* Opcua.History.C116_blocked_fails
* Opcua.History.C116_deadlock_fails
* Opcua.History.C116_handler_fails
* Opcua.Attributes.C117_mandatory
* Opcua.Attributes.C117_value
* Opcua.Attributes.C117_absent
* Opcua.Attributes.C117_optional
* Opcua.Attributes.C117_items_partial
* Opcua.Attributes.C117_range_fails
* Opcua.Attributes.C117_role_permissions_fails
* Opcua.Attributes.C117_items_fails
* Opcua.Suites.C118_blocks
* Opcua.Suites.C118_asymmetric
* Opcua.SubCounters.C119_views
* Opcua.SubCounters.C119_session_views
* Opcua.Options.C120_order
* Opcua.Options.C120_entry_partial
* Opcua.Options.C120_closed
* Opcua.Options.C120_new
* Opcua.Options.C120_issued_fails
* Opcua.Ending.C121_last
* Opcua.Ending.C121_untold_fails
* Opcua.Ending.C121_noCrash_partial
* Opcua.Ending.C121_silence
* Opcua.Ending.C121_hang_fails
* Opcua.Ending.C121_noResponse
* Opcua.Ending.C121_socket_fails
* Opcua.Ending.C121_close
* Opcua.Names.C123_text
* Opcua.Names.C123_unknown
* Opcua.Names.C123_severity
* Opcua.Names.C123_info_fails
* Opcua.Names.C123_tell_fails
* Opcua.Names.C123_flags_fails
* Opcua.StatusCode.C123_bits
* Opcua.StatusCode.C123_historian_fails
* Opcua.ClientRecv.C124_keys_partial
* Opcua.ClientRecv.C124_replay_fails
* Opcua.ClientRecv.C124_channel
* Opcua.ClientRecv.C124_none_partial
* Opcua.Conversation.C125_answers
* Opcua.PublishFlow.C126_conserved
* Opcua.PublishFlow.C126_priority
* Opcua.PublishFlow.C126_more
* Opcua.PublishFlow.C126_status_first
* Opcua.PublishFlow.C126_turn
* Opcua.PublishFlow.C126_modified
* Opcua.PublishFlow.C126_queued
* Opcua.PublishFlow.C126_room
* Opcua.PublishFlow.C126_waits_partial
* Opcua.PublishFlow.C126_stranded_fails
* Opcua.Closing.C127_both_or_neither
* Opcua.Delivery.C129_write_fails
* Opcua.Delivery.C129_republish_fails
* Opcua.Delivery.C129_room_fails
* Opcua.Alarms.C131_stop_fails
* Opcua.Alarms.C131_area_fails
* Opcua.Alarms.C131_cycle_fails
* Opcua.SessionEnd.C134_silent
* Opcua.SessionEnd.C134_forgotten
* Opcua.SessionEnd.C134_waiting_fails
* Opcua.SessionEnd.C134_safe_partial
* Opcua.SessionEnd.C134_crash_fails
* Opcua.SessionEnd.C134_hang_fails
* Opcua.Secrecy.C137_requests
* Opcua.Secrecy.C137_responses_partial
* Opcua.Secrecy.C138_responses_partial
* Opcua.Secrecy.C138_requests_partial
* Opcua.Secrecy.C138_injected_fails
* Opcua.Secrecy.C138_stranger_fails
* Opcua.Workers.C139_items
* Opcua.Kept.C140_oldest
* Opcua.Kept.C140_items_fails
* Opcua.Kept.C140_links_fails
* Opcua.Kept.C140_users_fails
* Opcua.Kept.C140_connections_fails
* Opcua.Kept.C140_default_fails
* Opcua.Kept.C140_slots_fails
* Opcua.Kept.C140_groups_fails
* Opcua.Memory.C141_result
* Opcua.Picture.C142_element_partial
* Opcua.Picture.C142_hidden_fails
* Opcua.Picture.C142_type_fails
* Opcua.Picture.C142_unknown_type_fails
* Opcua.ItemBook.C143_confirmed
* Opcua.ItemBook.C143_refused
* Opcua.ItemBook.C143_timestamps_fails
* Opcua.ItemBook.C143_mode_fails
* Opcua.ItemBook.C143_wrap_fails
* Opcua.Disclosure.C144_session_partial
* Opcua.Disclosure.C144_told_partial
* Opcua.Disclosure.C144_read
* Opcua.Disclosure.C144_switch_fails
* Opcua.Disclosure.C144_republish_fails
* Opcua.Disclosure.C144_foreign_fails
* Opcua.Disclosure.C144_history_fails
* Opcua.Deletion.C145_browse_partial
* Opcua.SendOn.C147_registry_partial
* Opcua.SendOn.C147_datavalue_fails
* Opcua.SendOn.C147_datavalue_inside_fails
* Opcua.SendOn.C147_expanded_fails
* Opcua.SendOn.C147_index_fails
* Opcua.SendOn.C147_null_fails
* Opcua.SendOn.C147_shape_fails
* Opcua.SendOn.C147_late_fails
* Opcua.SendOn.C147_unknown_fails
* Opcua.SendOn.C147_table_fails
* Opcua.Room.C148_registry
* Opcua.Room.C148_unread_fails
* Opcua.Room.C148_mask_fails
* Opcua.Alone.C149_depth
* Opcua.Alone.C149_standard
* Opcua.Alone.C149_deep
* Opcua.Alone.C149_room
* Opcua.Alone.C149_alone_partial
* Opcua.Alone.C149_refused
* Opcua.Alone.C149_plain
* Opcua.Alone.C149_cut_plain
* Opcua.Alone.C149_cut_partial
* Opcua.Alone.C149_sequence_partial
* Opcua.Alone.C149_nesting_fails
* Opcua.Alone.C149_end_fails
