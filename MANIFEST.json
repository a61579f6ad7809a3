{
 "claims": [
  {
   "property": "C01",
   "status": "proved",
   "theorems": [
    "Opcua.C01_fixed_width_roundtrip",
    "Opcua.C01_bool_roundtrip",
    "Opcua.C01_int32_roundtrip",
    "Opcua.C01_little_endian"
   ],
   "note": ""
  },
  {
   "property": "C02",
   "status": "proved",
   "theorems": [
    "Opcua.C02_string_roundtrip",
    "Opcua.C02_bytestring_roundtrip",
    "Opcua.C02_bytearray_roundtrip",
    "Opcua.C02_null_and_empty",
    "Opcua.C02_short_input_rejected"
   ],
   "note": ""
  },
  {
   "property": "C03",
   "status": "partial",
   "theorems": [
    "Opcua.C03_in_range",
    "Opcua.C03_before_range_clamped",
    "Opcua.C03_after_range_clamped_partial",
    "Opcua.C03_after_range_fails",
    "Opcua.C03_monotone"
   ],
   "note": "Clamping above the range fails for years beyond about 31196 (int64 wrap-around), see C03_after_range_fails; everything else is proved."
  },
  {
   "property": "C04",
   "status": "proved",
   "theorems": [
    "Opcua.C04_guid_roundtrip",
    "Opcua.C04_wire_layout"
   ],
   "note": ""
  },
  {
   "property": "C05",
   "status": "proved",
   "theorems": [
    "Opcua.C05_nodeid_roundtrip",
    "Opcua.C05_null_reads_nil",
    "Opcua.C05_null_guid",
    "Opcua.C05_two_byte_form_iff"
   ],
   "note": ""
  },
  {
   "property": "C06",
   "status": "proved",
   "theorems": [
    "Opcua.C06_expanded_roundtrip",
    "Opcua.C06_nil_nodeid_fails"
   ],
   "note": "The statement excludes nil NodeIDs; C06_nil_nodeid_fails shows why it must."
  },
  {
   "property": "C07",
   "status": "proved",
   "theorems": [
    "Opcua.C07_qualifiedname_roundtrip",
    "Opcua.C07_localizedtext_roundtrip",
    "Opcua.C07_mask_exact"
   ],
   "note": ""
  },
  {
   "property": "C08",
   "status": "proved",
   "theorems": [
    "Opcua.C08_variant_roundtrip",
    "Opcua.C08_variant_roundtrip_lossy",
    "Opcua.C08_type_tag_distinguishes"
   ],
   "note": ""
  },
  {
   "property": "C09",
   "status": "partial",
   "theorems": [
    "Opcua.C09_datavalue_roundtrip",
    "Opcua.C09_timestamp_truncation",
    "Opcua.C09_unset",
    "Opcua.C09_alignment_fails"
   ],
   "note": "Round trip proved for all field combinations; alignment after an undecodable Variant is refuted (C09_alignment_fails): the status field is skipped."
  },
  {
   "property": "C10",
   "status": "partial",
   "theorems": [
    "Opcua.C10_matrix_roundtrip",
    "Opcua.C10_cube_roundtrip_partial",
    "Opcua.C10_empty",
    "Opcua.C10_empty_rows_shape_fails",
    "Opcua.C10_inconsistent_dimensions_fails",
    "Opcua.C10_negative_dimension_fails",
    "Opcua.C10_consistent_dimensions_partial"
   ],
   "note": "Shape is kept for every rectangular array with a non-empty second dimension; 3-D arrays with empty rows lose their shape and inconsistent or negative dimensions crash the reader (_fails theorems)."
  },
  {
   "property": "C11",
   "status": "proved",
   "theorems": [
    "Opcua.C11_unknown_type_skipped",
    "Opcua.C11_xml_body_skipped",
    "Opcua.C11_registered_roundtrip",
    "Opcua.C11_declared_length"
   ],
   "note": ""
  },
  {
   "property": "C12",
   "status": "partial",
   "theorems": [
    "Opcua.C12_struct_roundtrip",
    "Opcua.C12_guid_field_fails",
    "Opcua.C12_result_independent_of_stack"
   ],
   "note": "Proved for every supported field type; structures with GUID fields are refused by the codec (C12_guid_field_fails)."
  },
  {
   "property": "C13",
   "status": "proved",
   "theorems": [
    "Opcua.C13_truncation_rejected",
    "Opcua.C13_leaf_truncation_rejected",
    "Opcua.C13_datavalue_boundary"
   ],
   "note": "Proved for all types without DataValues; C13_datavalue_boundary shows DataValues must be excluded."
  },
  {
   "property": "C14",
   "status": "proved",
   "theorems": [
    "Opcua.C14_prefix_free",
    "Opcua.C14_concatenation"
   ],
   "note": ""
  },
  {
   "property": "C15",
   "status": "proved",
   "theorems": [
    "Opcua.Registry.C15_registry_bijection",
    "Opcua.Registry.C15_register_outcome",
    "Opcua.Registry.C15_registrations_permanent"
   ],
   "note": "Calls are taken one at a time, as init functions make them."
  },
  {
   "property": "C16",
   "status": "proved",
   "theorems": [
    "Opcua.Writer.C16_never_exceeds_buffer",
    "Opcua.Writer.C16_write_spec",
    "Opcua.Writer.C16_content_is_concatenation",
    "Opcua.Writer.C16_writeAt_refused",
    "Opcua.Writer.C16_writeAt_spec"
   ],
   "note": "WriteAt with a negative offset is not modelled (no caller uses one)."
  },
  {
   "property": "C17",
   "status": "proved",
   "theorems": [
    "Opcua.C17_nodeid_text_roundtrip",
    "Opcua.C17_null_text",
    "Opcua.C17_nodeid_text_injective",
    "Opcua.C17_accepted_texts"
   ],
   "note": "google/uuid Parse and encoding/base64 are modelled from their documentation and source."
  },
  {
   "property": "C18",
   "status": "proved",
   "theorems": [
    "Opcua.C18_accepted_texts",
    "Opcua.C18_nil_text",
    "Opcua.C18_expanded_text_roundtrip"
   ],
   "note": ""
  },
  {
   "property": "C19",
   "status": "partial",
   "theorems": [
    "Opcua.C19_qname_text_roundtrip",
    "Opcua.C19_no_colon",
    "Opcua.C19_nonnumeric_prefix_partial",
    "Opcua.C19_large_prefix_fails",
    "Opcua.C19_browse_path_roundtrip"
   ],
   "note": "Round trips proved. A number above 65535 before the colon gives namespace 65535 with the whole text as name (C19_large_prefix_fails)."
  },
  {
   "property": "C20",
   "status": "partial",
   "theorems": [
    "Opcua.C20_distinct",
    "Opcua.C20_forth_partial",
    "Opcua.C20_standard_fails",
    "Opcua.C20_server_fails",
    "Opcua.C20_translate_inverse",
    "Opcua.C20_expanded_form",
    "Opcua.C20_unknown_uri",
    "Opcua.C20_translate_between_tables",
    "Opcua.C20_full_table_fails"
   ],
   "note": "Inverse translation proved for all tables; translation to another table fails when all 65536 indexes are in use (C20_full_table_fails), proved below that. From the ExpandedNodeID and back: proved except for the URI of the standard namespace and for a server index, which do not come back (C20_standard_fails, C20_server_fails)."
  },
  {
   "property": "C21",
   "status": "proved",
   "theorems": [
    "Opcua.StatusCode.C21_classification",
    "Opcua.StatusCode.C21_exclusive",
    "Opcua.StatusCode.C21_changed",
    "Opcua.StatusCode.C21_overflow",
    "Opcua.StatusCode.C21_set_overflow"
   ],
   "note": ""
  },
  {
   "property": "C22",
   "status": "partial",
   "theorems": [
    "Opcua.C22_symbolic_id_fails",
    "Opcua.C22_own_encoding_fails",
    "Opcua.C22_empty_mask_partial",
    "Opcua.C22_empty_roundtrip_partial"
   ],
   "note": "The code violates the claim: any announced field crashes the reader. Holds for the empty mask."
  },
  {
   "property": "C23",
   "status": "proved",
   "theorems": [
    "Opcua.Channel.C23_chunking",
    "Opcua.Channel.C23_numbering",
    "Opcua.Channel.C23_no_room",
    "Opcua.Channel.C23_count"
   ],
   "note": ""
  },
  {
   "property": "C24",
   "status": "proved",
   "theorems": [
    "Opcua.Channel.C24_blocks",
    "Opcua.Channel.C24_unpad",
    "Opcua.Channel.C24_open_message"
   ],
   "note": "Symmetric chunks for every lawful suite; OpenSecureChannel messages for every lawful RSA suite, any key sizes on either side."
  },
  {
   "property": "C25",
   "status": "proved",
   "theorems": [
    "Opcua.Channel.C25_round_trip",
    "Opcua.Channel.C25_authentic",
    "Opcua.Channel.C25_tampered",
    "Opcua.Channel.C25_delivers_authenticated"
   ],
   "note": "Crypto is abstract: any suite satisfying Suite.Lawful (sizes, decryption inverts encryption)."
  },
  {
   "property": "C26",
   "status": "proved",
   "theorems": [
    "Opcua.Counter.C26_interleaving",
    "Opcua.Counter.C26_nonzero",
    "Opcua.Counter.C26_consecutive",
    "Opcua.Counter.C26_distinct",
    "Opcua.Counter.C26_period"
   ],
   "note": ""
  },
  {
   "property": "C27",
   "status": "partial",
   "theorems": [
    "Opcua.Channel.C27_current_or_pending",
    "Opcua.Channel.C27_frame_refused",
    "Opcua.Channel.C27_old_token_dead",
    "Opcua.Channel.C27_reachable",
    "Opcua.Channel.C27_keys_of_token",
    "Opcua.Channel.C27_token_zero_fails"
   ],
   "note": "Proved for every history of renewals and chunks; C27_token_zero_fails: between Open and the first chunk a chunk naming token 0 gets past the token check and crashes the server in secured modes."
  },
  {
   "property": "C28",
   "status": "proved",
   "theorems": [
    "Opcua.Psha.C28_is_p_hash",
    "Opcua.Psha.C28_length",
    "Opcua.Psha.C28_prefix",
    "Opcua.Psha.C28_agreement",
    "Opcua.Psha.C28_roles"
   ],
   "note": ""
  },
  {
   "property": "C29",
   "status": "proved",
   "theorems": [
    "Opcua.Frame.C29_frame",
    "Opcua.Frame.C29_fragmentation",
    "Opcua.Frame.C29_two_fragmentations",
    "Opcua.Frame.C29_refused"
   ],
   "note": ""
  },
  {
   "property": "C30",
   "status": "partial",
   "theorems": [
    "Opcua.Channel.C30_receive_limits",
    "Opcua.Channel.C30_too_many_chunks",
    "Opcua.Channel.C30_send_size_partial",
    "Opcua.Channel.C30_send_count_partial",
    "Opcua.Channel.C30_partial_response_fails",
    "Opcua.Channel.C30_in_part_fails"
   ],
   "note": "Receive limits proved. C30_partial_response_fails, and for every channel with a limit C30_in_part_fails: a response over the chunk-count limit is sent in part before the error."
  },
  {
   "property": "C31",
   "status": "partial",
   "theorems": [
    "Opcua.Channel.C31_plain_request_fails",
    "Opcua.Channel.C31_foreign_certificate_fails",
    "Opcua.Channel.C31_symmetric_partial",
    "Opcua.Channel.C31_open_partial"
   ],
   "note": "False for OPN frames: C31_plain_request_fails (any body in a policy-None OPN frame is delivered on a secured channel) and C31_foreign_certificate_fails. Proved: all other frames carry a valid MAC, non-None OPN frames a signature of the key they name."
  },
  {
   "property": "C32",
   "status": "partial",
   "theorems": [
    "Opcua.Channel.C32_replay_fails",
    "Opcua.Channel.C32_old_token_partial"
   ],
   "note": "C32_replay_fails: sequence numbers are never compared, so replays are accepted; what holds is that a chunk of a retired token is refused."
  },
  {
   "property": "C33",
   "status": "partial",
   "theorems": [
    "Opcua.Frame.C33_minimum",
    "Opcua.Frame.C33_read_partial",
    "Opcua.Frame.C33_tiny_buffer_fails"
   ],
   "note": "The minimum rule is proved and reads with announced sizes of 8 or more never crash; C33_tiny_buffer_fails: a client that announces a send buffer below 8 crashes the server."
  },
  {
   "property": "C34",
   "status": "partial",
   "theorems": [
    "Opcua.Frame.C34_revised",
    "Opcua.Frame.C34_renewal_partial",
    "Opcua.Frame.C34_own_server",
    "Opcua.Frame.C34_wrap_fails"
   ],
   "note": "Revision proved, and renewal at 75 percent for every lifetime up to 57266230 ms (all this server can return); C34_wrap_fails: above that the 32-bit product wraps and the client renews much too early."
  },
  {
   "property": "C35",
   "status": "proved",
   "theorems": [
    "Opcua.Pending.C35_own_response",
    "Opcua.Pending.C35_at_most_once",
    "Opcua.Pending.C35_delivered",
    "Opcua.Pending.C35_unknown_dropped"
   ],
   "note": "Handles are drawn atomically (C26 covers the CAS loop); delivery is proved for the first 2^32-1 requests of a channel, after which handles repeat. The local answer to CloseSecureChannel is not modelled."
  },
  {
   "property": "C36",
   "status": "partial",
   "theorems": [
    "Opcua.Session.C36_no_effect",
    "Opcua.Session.C36_close_no_effect",
    "Opcua.Session.C36_other_events",
    "Opcua.Session.C36_status",
    "Opcua.Session.C36_activated",
    "Opcua.Session.C36_gated",
    "Opcua.Session.C36_refused_partial",
    "Opcua.Session.C36_unactivated_deleted_fails",
    "Opcua.Session.C36_foreign_refresh_fails"
   ],
   "note": "Effects on the world and on other sessions are ruled out for every refused request. Two deviations: a request naming a session that is not activated deletes it, and a request on a foreign channel refreshes the idle timer."
  },
  {
   "property": "C37",
   "status": "proved",
   "theorems": [
    "Opcua.Session.C37_limit",
    "Opcua.Session.C37_refused",
    "Opcua.Session.C37_idle_not_served",
    "Opcua.Session.C37_sweep_keeps",
    "Opcua.Session.C37_sweep_removes",
    "Opcua.Session.C37_unique"
   ],
   "note": "One request at a time; the table is an association list, times are milliseconds."
  },
  {
   "property": "C38",
   "status": "partial",
   "theorems": [
    "Opcua.PublishQueue.C38_conserved",
    "Opcua.PublishQueue.C38_in_order",
    "Opcua.PublishQueue.C38_at_most_once",
    "Opcua.PublishQueue.C38_bounded",
    "Opcua.PublishQueue.C38_eviction",
    "Opcua.PublishQueue.C38_delete_fails",
    "Opcua.PublishQueue.C38_hang_fails"
   ],
   "note": "Order, conservation, at most once and the bound hold in every interleaving while the session lives. Deleting the session drops queued requests unanswered, and a worker can wait forever on a queue the timers have just emptied."
  },
  {
   "property": "C39",
   "status": "proved",
   "theorems": [
    "Opcua.Paging.C39_pages_in_order",
    "Opcua.Paging.C39_complete",
    "Opcua.Paging.C39_page_size",
    "Opcua.Paging.C39_limit",
    "Opcua.Paging.C39_next_not_refused",
    "Opcua.Paging.C39_once",
    "Opcua.Paging.C39_once_status",
    "Opcua.Paging.C39_stays_open",
    "Opcua.Paging.C39_refused",
    "Opcua.Paging.C39_follow"
   ],
   "note": "Continuation point identifiers are a 32-bit counter; the theorems hold for fewer than 2^32 browse calls of a session. Requests of one session are served one at a time."
  },
  {
   "property": "C40",
   "status": "partial",
   "theorems": [
    "Opcua.Paging.C40_short_fails",
    "Opcua.Paging.C40_answered_partial"
   ],
   "note": "C40_short_fails: a continuation point of one to three bytes makes the server panic and the process die. C40_answered_partial covers all other lengths."
  },
  {
   "property": "C41",
   "status": "partial",
   "theorems": [
    "Opcua.Revise.C41_revised_partial",
    "Opcua.Revise.C41_nan_fails",
    "Opcua.Revise.C41_expiry_partial"
   ],
   "note": "C41_nan_fails: a NaN requested timeout is granted unrevised and the session never expires. C41_revised_partial and C41_expiry_partial exclude NaN."
  },
  {
   "property": "C42",
   "status": "partial",
   "theorems": [
    "Opcua.Password.C42_roundtrip_partial",
    "Opcua.Password.C42_malformed",
    "Opcua.Password.C42_password_partial",
    "Opcua.Password.C42_algorithm",
    "Opcua.Password.C42_replay_fails",
    "Opcua.Password.C42_zero_fill_fails",
    "Opcua.Password.C42_long_fails"
   ],
   "note": "The nonce is never compared (C42_replay_fails), a truncated secret gives zero bytes as password (C42_zero_fill_fails), passwords longer than 64 bytes are refused (C42_long_fails). RSA is abstract."
  },
  {
   "property": "C43",
   "status": "proved",
   "theorems": [
    "Opcua.Revise.C43_interval",
    "Opcua.Revise.C43_keep_alive",
    "Opcua.Revise.C43_lifetime",
    "Opcua.Revise.C43_revised",
    "Opcua.Revise.C43_notifications"
   ],
   "note": "Exact rational arithmetic; rounding of float64 products and quotients is not modelled."
  },
  {
   "property": "C44",
   "status": "partial",
   "theorems": [
    "Opcua.Subscription.C44_consecutive",
    "Opcua.Subscription.C44_keep_alive",
    "Opcua.Subscription.C44_status_change",
    "Opcua.Subscription.C44_unique_partial",
    "Opcua.Subscription.C44_reuse_fails"
   ],
   "note": "C44_reuse_fails: a number is used again for other contents if the response could not be written."
  },
  {
   "property": "C45",
   "status": "partial",
   "theorems": [
    "Opcua.Subscription.C45_bound",
    "Opcua.Subscription.C45_available",
    "Opcua.Subscription.C45_retained_partial",
    "Opcua.Subscription.C45_republish_partial",
    "Opcua.Subscription.C45_republish_removes_fails"
   ],
   "note": "C45_republish_removes_fails: Republish removes the message; the rest is proved for acknowledgements and newer messages."
  },
  {
   "property": "C46",
   "status": "partial",
   "theorems": [
    "Opcua.SubTable.C46_results",
    "Opcua.SubTable.C46_release",
    "Opcua.SubTable.C46_response_partial",
    "Opcua.SubTable.C46_late_keep_alive_fails"
   ],
   "note": "C46_late_keep_alive_fails: a late keep-alive answers with Good for every acknowledgement. Results, release and the other responses are proved."
  },
  {
   "property": "C47",
   "status": "proved",
   "theorems": [
    "Opcua.Subscription.C47_first",
    "Opcua.Subscription.C47_timely",
    "Opcua.Subscription.C47_sparing"
   ],
   "note": "The first message comes in the first cycle; then never more than maxKeepAliveCount cycles without a message."
  },
  {
   "property": "C48",
   "status": "partial",
   "theorems": [
    "Opcua.Subscription.C48_not_early_partial",
    "Opcua.Subscription.C48_not_consecutive_fails",
    "Opcua.Subscription.C48_below_limit",
    "Opcua.Subscription.C48_not_late"
   ],
   "note": "C48_not_consecutive_fails: the lifetime counter is not set back by cycles with a publish request and no notification, so the cycles need not be consecutive. The bounds are proved."
  },
  {
   "property": "C49",
   "status": "partial",
   "theorems": [
    "Opcua.SubTable.C49_own_partial",
    "Opcua.SubTable.C49_items_fails",
    "Opcua.SubTable.C49_acks_fails"
   ],
   "note": "C49_items_fails, C49_acks_fails: CreateMonitoredItems, SetMonitoringMode, SetTriggering, DeleteMonitoredItems, acknowledgements and Republish do not compare sessions. Proved for the other services."
  },
  {
   "property": "C50",
   "status": "partial",
   "theorems": [
    "Opcua.SubTable.C50_limit",
    "Opcua.SubTable.C50_ids_partial",
    "Opcua.SubTable.C50_create_partial",
    "Opcua.SubTable.C50_delete_partial",
    "Opcua.SubTable.C50_wrap_fails"
   ],
   "note": "C50_wrap_fails: ids wrap after 2^32 CreateSubscription requests and a live subscription is overwritten. Ids, create and delete are proved below that; the limit always."
  },
  {
   "property": "C51",
   "status": "proved",
   "theorems": [
    "Opcua.MonitoredItem.C51_bound",
    "Opcua.MonitoredItem.C51_kept",
    "Opcua.MonitoredItem.C51_resize"
   ],
   "note": "Data change items; queue sizes below 1 become 1 and above 1024 become 1024. Queues of event items use the same two loops with size 1024."
  },
  {
   "property": "C52",
   "status": "partial",
   "theorems": [
    "Opcua.MonitoredItem.C52_never_fails",
    "Opcua.MonitoredItem.C52_lost_fails"
   ],
   "note": "C52_never_fails, C52_lost_fails: the overflow bit is set in a copy of the queued value (deque.Front and Back return values), so that no client ever sees it; values are lost silently. Nothing of the claim holds for discarded values."
  },
  {
   "property": "C53",
   "status": "proved",
   "theorems": [
    "Opcua.MonitoredItem.C53_order",
    "Opcua.MonitoredItem.C53_complete",
    "Opcua.MonitoredItem.C53_response",
    "Opcua.DataChange.C53_cycle"
   ],
   "note": "For every order in which items are visited. Completeness assumes that the history discards nothing of the item (overflow, trimming, disabling, deletion are the subject of C51). moreNotifications is about items that are reporting or triggered."
  },
  {
   "property": "C54",
   "status": "partial",
   "theorems": [
    "Opcua.DataChange.C54_signed_partial",
    "Opcua.DataChange.C54_unsigned_partial",
    "Opcua.DataChange.C54_decrease_partial",
    "Opcua.DataChange.C54_float_partial",
    "Opcua.DataChange.C54_float_sound_partial",
    "Opcua.DataChange.C54_unsigned_fails",
    "Opcua.DataChange.C54_wrap_fails",
    "Opcua.DataChange.C54_array_fails",
    "Opcua.DataChange.C54_array_kept",
    "Opcua.DataChange.C54_bytes",
    "Opcua.DataChange.C54_inf_fails"
   ],
   "note": "C54_unsigned_fails, C54_wrap_fails, C54_array_fails, C54_inf_fails: decreases of unsigned numbers, equal arrays at other addresses and infinities are always reported; wrapped 64-bit differences are missed. Proved exact for signed numbers up to 32 bits and differences up to 2^53, increases of unsigned ones, exact floats; soundness for all finite floats. The rounding of float64 is a parameter with laws."
  },
  {
   "property": "C55",
   "status": "partial",
   "theorems": [
    "Opcua.DataChange.C55_test_partial",
    "Opcua.DataChange.C55_consecutive_partial",
    "Opcua.DataChange.C55_interval",
    "Opcua.DataChange.C55_current_partial",
    "Opcua.DataChange.C55_nan_fails",
    "Opcua.DataChange.C55_due",
    "Opcua.DataChange.C55_first"
   ],
   "note": "C55_nan_fails: a NaN is reported in every interval. Proved without NaN and for arrays that are not changed in place: the test is exact, consecutive reports differ, and the last sample looked at does not differ from the last report."
  },
  {
   "property": "C56",
   "status": "partial",
   "theorems": [
    "Opcua.MonitoredItem.C56_count_partial",
    "Opcua.MonitoredItem.C56_underflow_fails"
   ],
   "note": "C56_underflow_fails: a change from Reporting to Sampling or back decrements the count, and from 0 it wraps to 4294967295. Proved for histories without such changes."
  },
  {
   "property": "C57",
   "status": "proved",
   "theorems": [
    "Opcua.MonitoredItem.C57_links",
    "Opcua.MonitoredItem.C57_trigger",
    "Opcua.MonitoredItem.C57_only",
    "Opcua.MonitoredItem.C57_published"
   ],
   "note": "Links as a multiset; an item in Sampling mode is published only if triggered, and it is triggered only by an item that links to it."
  },
  {
   "property": "C58",
   "status": "partial",
   "theorems": [
    "Opcua.EventFilter.C58_where_partial",
    "Opcua.EventFilter.C58_fields_partial",
    "Opcua.EventFilter.C58_operator_fails",
    "Opcua.EventFilter.C58_conversion_fails",
    "Opcua.EventFilter.C58_time_fails",
    "Opcua.EventFilter.C58_inherited_fails",
    "Opcua.EventFilter.C58_panic_fails",
    "Opcua.EventFilter.C58_endless_fails",
    "Opcua.EventFilter.C58_names",
    "Opcua.EventFilter.C58_activeState"
   ],
   "note": "C58_operator_fails, C58_conversion_fails, C58_time_fails, C58_inherited_fails, C58_panic_fails, C58_endless_fails: other operators, conversions, times with clock readings and inherited fields are evaluated wrongly; too few operands and arrays panic; elements that refer to themselves never end. Proved for filters of Equals and OfType with forward references and values of the same type."
  },
  {
   "property": "C59",
   "status": "partial",
   "theorems": [
    "Opcua.AddressSpace.C59_symmetric_partial",
    "Opcua.AddressSpace.C59_deleted_partial",
    "Opcua.AddressSpace.C59_noDuplicates",
    "Opcua.AddressSpace.C59_late_fails",
    "Opcua.AddressSpace.C59_replaced_fails"
   ],
   "note": "C59_late_fails, C59_replaced_fails: a reference to a node that is added later never gets its inverse and survives the deletion of that node; adding an id again loses the references of the old node. Proved for all histories in which added nodes are new and refer to present nodes; no duplicates in all histories."
  },
  {
   "property": "C60",
   "status": "proved",
   "theorems": [
    "Opcua.AddressSpace.C60_standard",
    "Opcua.AddressSpace.C60_refused"
   ],
   "note": "For DeleteNodeByID and DeleteNodeByIDRecursive; the application's DeleteNodes has no protection and is not part of the property."
  },
  {
   "property": "C61",
   "status": "partial",
   "theorems": [
    "Opcua.AddressSpace.C61_sound",
    "Opcua.AddressSpace.C61_exact_partial",
    "Opcua.AddressSpace.C61_long_fails",
    "Opcua.AddressSpace.C61_multiple_fails"
   ],
   "note": "C61_long_fails, C61_multiple_fails: the 102nd supertype and second supertypes are denied. Soundness for all graphs; exactness for single inheritance and up to 101 references. Termination: the loop is bounded."
  },
  {
   "property": "C62",
   "status": "partial",
   "theorems": [
    "Opcua.AddressSpace.C62_ends_partial",
    "Opcua.AddressSpace.C62_cycle_fails",
    "Opcua.AddressSpace.C62_found",
    "Opcua.AddressSpace.C62_kinds",
    "Opcua.AddressSpace.C62_once_partial",
    "Opcua.AddressSpace.C62_count_partial",
    "Opcua.AddressSpace.C62_diamond_fails",
    "Opcua.AddressSpace.C62_count_fails",
    "Opcua.AddressSpace.C62_subtypes_fails"
   ],
   "note": "C62_cycle_fails, C62_diamond_fails, C62_count_fails, C62_subtypes_fails: no end on cycles, duplicates with two parents, wrong count, GetSubTypes never ends if there is a subtype. GetChildren proved exact whenever it ends, ends exactly if there is no cycle; each once and count correct in forests."
  },
  {
   "property": "C63",
   "status": "partial",
   "theorems": [
    "Opcua.Browse.C63_exact_partial",
    "Opcua.Browse.C63_sound",
    "Opcua.Browse.C63_hidden",
    "Opcua.Browse.C63_type",
    "Opcua.Browse.C63_dangling_fails"
   ],
   "note": "exact list in order with the requested fields when no wanted reference dangles and types have one, not too distant, supertype; sound always; a node the user may not browse looks unknown; one dangling reference fails the whole answer (negation)"
  },
  {
   "property": "C64",
   "status": "partial",
   "theorems": [
    "Opcua.Browse.C64_sound_partial",
    "Opcua.Browse.C64_complete_partial",
    "Opcua.Browse.C64_none",
    "Opcua.Browse.C64_permission_fails",
    "Opcua.Browse.C64_first_fails"
   ],
   "note": "sound: every target is reached by the whole path; complete if only the last element is ambiguous; no match is told; only the first match of an element is followed (negation); no permission is checked (negation)"
  },
  {
   "property": "C65",
   "status": "partial",
   "theorems": [
    "Opcua.AddressSpace.C65_unique",
    "Opcua.AddressSpace.C65_stable_partial",
    "Opcua.AddressSpace.C65_wrap_fails"
   ],
   "note": "C65_wrap_fails: indexes wrap around at 65536. Proved for up to 65536 URIs; uniqueness of URIs for all histories."
  },
  {
   "property": "C66",
   "status": "partial",
   "theorems": [
    "Opcua.Access.C66_level",
    "Opcua.Access.C66_read",
    "Opcua.Access.C66_readRoles",
    "Opcua.Access.C66_attributes",
    "Opcua.Access.C66_hiddenRead",
    "Opcua.Access.C66_hiddenWrite",
    "Opcua.Access.C66_write",
    "Opcua.Access.C66_writeFrame",
    "Opcua.Access.C66_written",
    "Opcua.Access.C66_call",
    "Opcua.Access.C66_callExact",
    "Opcua.Access.C66_monitor",
    "Opcua.Access.C66_monitorExact",
    "Opcua.Access.C66_history_fails"
   ],
   "note": "Read exact, Write/Call/CreateMonitoredItems only with the permissions and access level, hidden nodes look missing to Read and Write, a permitted write is stored; HistoryRead checks nothing (negation)"
  },
  {
   "property": "C67",
   "status": "partial",
   "theorems": [
    "Opcua.Access.C67_exact_partial",
    "Opcua.Access.C67_sound",
    "Opcua.Access.C67_order_partial",
    "Opcua.Access.C67_denied",
    "Opcua.Access.C67_break_fails",
    "Opcua.Access.C67_order_fails",
    "Opcua.Access.C67_connection_fails"
   ],
   "note": "sound always; exact and independent of order if every rule admits the application and endpoint; a rule that does not ends the search (negation, order negation); permissions are asked for without application and endpoint (negation)"
  },
  {
   "property": "C68",
   "status": "partial",
   "theorems": [
    "Opcua.Write.C68_partial",
    "Opcua.Write.C68_stored",
    "Opcua.Write.C68_accepted_partial",
    "Opcua.Write.C68_refused",
    "Opcua.Write.C68_frame",
    "Opcua.Write.C68_matrix_fails",
    "Opcua.Write.C68_element_fails",
    "Opcua.Write.C68_struct_fails",
    "Opcua.Write.C68_range_fails"
   ],
   "note": "conformance is an invariant of every sequence of writes of plain values (one dimension, no diagnostic infos, ASCII, element lengths within the limit); conforming values accepted and stored, others refused; matrices, string elements, DataValues as structures and longer characters break it (negations)"
  },
  {
   "property": "C69",
   "status": "partial",
   "theorems": [
    "Opcua.Range.C69_read_partial",
    "Opcua.Range.C69_outside",
    "Opcua.Range.C69_scalar",
    "Opcua.Range.C69_malformed_partial",
    "Opcua.Range.C69_empty_fails",
    "Opcua.Range.C69_sign_fails",
    "Opcua.Range.C69_large_fails",
    "Opcua.Range.C69_component_fails",
    "Opcua.Range.C69_readTexts_partial",
    "Opcua.Range.C69_readByteStrings_partial",
    "Opcua.Range.C69_write_partial",
    "Opcua.Range.C69_count",
    "Opcua.Range.C69_readBack_partial",
    "Opcua.Range.C69_second_fails",
    "Opcua.Range.C69_validate_partial",
    "Opcua.Range.C69_validateGood",
    "Opcua.Range.C69_validateNoData"
   ],
   "note": "reads and writes exact for one range on all types and two ranges on string arrays; read back for every range text; outside and malformed answered as stated for texts without sign and data that is not empty; sign, empty data, 32 bits, empty component and the second range of a write break it (negations)"
  },
  {
   "property": "C70",
   "status": "partial",
   "theorems": [
    "Opcua.Write.C70_partial",
    "Opcua.Write.C70_null_fails",
    "Opcua.Write.C70_type_fails",
    "Opcua.Write.C70_rank_fails",
    "Opcua.Write.C70_matrix_fails",
    "Opcua.Write.C70_historian_fails",
    "Opcua.Write.C70_whole"
   ],
   "note": "no panic for variables of one type and rank with a historian and plain values that are not null; without a range no panic at all; null, other type, other rank, matrix with a range and a missing historian end the server (negations)"
  },
  {
   "property": "C71",
   "status": "partial",
   "theorems": [
    "Opcua.Batch.C71_refused",
    "Opcua.Batch.C71_taken",
    "Opcua.Batch.C71_inPlace",
    "Opcua.Batch.C71_alone_partial",
    "Opcua.Batch.C71_readOnly",
    "Opcua.Batch.C71_answered",
    "Opcua.Batch.C71_read",
    "Opcua.Batch.C71_write_partial",
    "Opcua.Batch.C71_lost_fails"
   ],
   "note": "results in place for every schedule and other requests; equal to the item alone for read-only items and for items on different entries; every batch ends; refusals exact; two range writes to one array in one batch lose an update (negation)"
  },
  {
   "property": "C72",
   "status": "partial",
   "theorems": [
    "Opcua.Endpoint.C72_best_partial",
    "Opcua.Endpoint.C72_none_partial",
    "Opcua.Endpoint.C72_noCertificate",
    "Opcua.Endpoint.C72_mode_fails",
    "Opcua.Endpoint.C72_default",
    "Opcua.Endpoint.C72_offered"
   ],
   "note": "exact for every list and every order the sort may leave, and together with the server's own list; a mode that was asked for without a policy and without a certificate is ignored (negation)"
  },
  {
   "property": "C73",
   "status": "partial",
   "theorems": [
    "Opcua.DataChange.C73_read",
    "Opcua.DataChange.C73_item_partial",
    "Opcua.DataChange.C73_modify_fails"
   ],
   "note": "C73_modify_fails: the choice in ModifyMonitoredItems is ignored. Proved for Read and for items with the choice made at creation; picoseconds are dropped unless both are asked for."
  },
  {
   "property": "C74",
   "status": "partial",
   "theorems": [
    "Opcua.C74_plain_types_never_crash_partial",
    "Opcua.C74_nested_variant_fails"
   ],
   "note": "Holds for all types made of built-in scalars, structures and slices; refuted for Variants (nesting, C10) and DiagnosticInfo (C22). Memory exhaustion by declared lengths is not modelled."
  },
  {
   "property": "C75",
   "status": "partial",
   "theorems": [
    "Opcua.C75_extended_body_fails",
    "Opcua.C75_exact_body_partial"
   ],
   "note": "The declared length is ignored for registered types; holds when it equals the length of the known fields."
  },
  {
   "property": "C76",
   "status": "partial",
   "theorems": [
    "Opcua.Channel.C76_mode_none",
    "Opcua.Channel.C76_sign_partial",
    "Opcua.Channel.C76_short_frame_fails",
    "Opcua.Channel.C76_non_rsa_fails",
    "Opcua.Channel.C76_padding_fails",
    "Opcua.Channel.C76_policy_fails"
   ],
   "note": "Crash-free in mode None and for long enough frames in mode Sign; short frames, non-RSA certificates and self-signed oversize padding crash the receiver, and so does, in mode Sign, an OPN frame that names the policy None before the first use of a token (_fails theorems). Error frames are in C121: one with the code Good crashes a client in every mode (C121_crash_fails)."
  },
  {
   "property": "C77",
   "status": "partial",
   "theorems": [
    "Opcua.Renewal.C77_serial_renewals_partial",
    "Opcua.Renewal.C77_overlap_fails",
    "Opcua.Renewal.C77_unused_token_fails"
   ],
   "note": "Proved when renewals do not overlap and every token is used before the next renewal; C77_overlap_fails and C77_unused_token_fails show that the code does not ensure either."
  },
  {
   "property": "C78",
   "status": "partial",
   "theorems": [
    "Opcua.Pending.C78_deadline_partial",
    "Opcua.Pending.C78_deadline_value_partial",
    "Opcua.Pending.C78_blocked_fails",
    "Opcua.Pending.C78_reachable_fails"
   ],
   "note": "C78_blocked_fails: with 32 operations queued and a silent server a further call blocks for ever before its deadline exists; proved for calls that got past the queue and finished writing."
  },
  {
   "property": "C79",
   "status": "partial",
   "theorems": [
    "Opcua.TokenRace.C79_server_partial",
    "Opcua.TokenRace.C79_server_fails",
    "Opcua.TokenRace.C79_client_partial",
    "Opcua.TokenRace.C79_client_fails"
   ],
   "note": "C79_server_fails and C79_client_fails give interleavings that name one token and use the keys of another; proved when the token does not change during a send."
  },
  {
   "property": "C80",
   "status": "partial",
   "theorems": [
    "Opcua.PublishQueue.C80_timeout_partial",
    "Opcua.PublishQueue.C80_no_hint_fails",
    "Opcua.PublishQueue.C80_clock_skew_fails"
   ],
   "note": "The code compares with the time stamp of the client, so hint 0 and slow client clocks give BadTimeout at once."
  },
  {
   "property": "C81",
   "status": "partial",
   "theorems": [
    "Opcua.Session.C81_takeover_fails",
    "Opcua.Session.C81_unsecured_fails",
    "Opcua.Session.C81_channel_key_partial"
   ],
   "note": "The signature is checked against the key of the channel only, and not at all without security."
  },
  {
   "property": "C82",
   "status": "partial",
   "theorems": [
    "Opcua.Password.C82_full_exponent_partial",
    "Opcua.Password.C82_short_exponent_fails"
   ],
   "note": "C82_short_exponent_fails: the server reads the cipher text in blocks of the length of the private exponent. Assumes that RSA decryption refuses blocks of another length."
  },
  {
   "property": "C83",
   "status": "partial",
   "theorems": [
    "Opcua.Locks.C83_finish_partial",
    "Opcua.Locks.C83_inversion_fails",
    "Opcua.Locks.C83_queue_fails",
    "Opcua.Locks.C83_outage_fails"
   ],
   "note": "C83_inversion_fails, C83_queue_fails, C83_outage_fails: a client with 65 expiring subscriptions stops all. Proved without the periodic check and with at most 64 expiries per session."
  },
  {
   "property": "C84",
   "status": "partial",
   "theorems": [
    "Opcua.Diagnostics.C84_table_partial",
    "Opcua.Diagnostics.C84_array_fails",
    "Opcua.SubCrash.C84_orderly_partial",
    "Opcua.SubCrash.C84_race_fails",
    "Opcua.SubCrash.C84_foreign_fails",
    "Opcua.SubCrash.C84_shutdown_fails"
   ],
   "note": "C84_race_fails, C84_foreign_fails, C84_shutdown_fails: lookups are not protected against deletion; C84_array_fails: reading the SubscriptionDiagnosticsArray iterates the map without its lock, which Go ends the process for. Proved for histories in which services and timers do not meet on one subscription, and for the map if nobody reads the array."
  },
  {
   "property": "C85",
   "status": "proved",
   "theorems": [
    "Opcua.Subscription.C85_disabled",
    "Opcua.Subscription.C85_enabled",
    "Opcua.Subscription.C85_late"
   ],
   "note": "For every history from a new subscription; what notifications are available is a parameter here and modelled with the monitored items."
  },
  {
   "property": "C86",
   "status": "partial",
   "theorems": [
    "Opcua.ItemLocks.C86_finish_partial",
    "Opcua.ItemLocks.C86_links_partial",
    "Opcua.ItemLocks.C86_self_fails",
    "Opcua.ItemLocks.C86_mutual_fails",
    "Opcua.ItemLocks.C86_event_fails",
    "Opcua.ItemLocks.C86_delete_fails",
    "Opcua.ItemLocks.C86_diagnostics_fails",
    "Opcua.ItemLocks.C86_resend_fails",
    "Opcua.ItemLocks.C86_cross_fails",
    "Opcua.ItemLocks.C86_session_fails",
    "Opcua.ItemLocks.C86_sessionResend_fails"
   ],
   "note": "C86_self_fails, C86_mutual_fails, C86_event_fails, C86_delete_fails: an item linked to itself blocks its subscription at the next value; an event blocks with a change or deletion of an item that listens to it. C86_diagnostics_fails, C86_resend_fails, C86_cross_fails, C86_session_fails, C86_sessionResend_fails: an item that monitors the diagnostics of its own subscription or of a session blocks publishing or the whole subscription manager. Proved (C86_finish_partial, C86_links_partial) whenever the locks have an order, without changes of event items."
  },
  {
   "property": "C87",
   "status": "partial",
   "theorems": [
    "Opcua.DataChange.C87_partial",
    "Opcua.DataChange.C87_stale_fails",
    "Opcua.DataChange.C87_disabled"
   ],
   "note": "C87_stale_fails: samples that wait for a cycle survive disabling. Proved if none wait."
  },
  {
   "property": "C88",
   "status": "partial",
   "theorems": [
    "Opcua.DataChange.C88_current_partial",
    "Opcua.DataChange.C88_percent_fails"
   ],
   "note": "C88_percent_fails: everything is reported, even the placeholder before the first sample. Proved: nothing is missed."
  },
  {
   "property": "C89",
   "status": "partial",
   "theorems": [
    "Opcua.AddressSpace.C89_heard",
    "Opcua.AddressSpace.C89_once",
    "Opcua.AddressSpace.C89_all_partial",
    "Opcua.AddressSpace.C89_ends_partial",
    "Opcua.AddressSpace.C89_second_fails",
    "Opcua.AddressSpace.C89_cycle_fails"
   ],
   "note": "C89_second_fails, C89_cycle_fails: only the first inverse HasNotifier is followed, cycles of notifiers never end. Soundness and at-most-once for all graphs; completeness for one notifier per object; termination without cycles."
  },
  {
   "property": "C90",
   "status": "partial",
   "theorems": [
    "Opcua.AddressSpace.C90_lookups_partial",
    "Opcua.AddressSpace.C90_ends_partial",
    "Opcua.AddressSpace.C90_stale_fails",
    "Opcua.AddressSpace.C90_cycle_fails"
   ],
   "note": "C90_stale_fails, C90_cycle_fails: a type that was looked up before it was added stays Null, cycles never end. Proved for sequences of lookups in an unchanged address space; termination for single inheritance without cycles."
  },
  {
   "property": "C91",
   "status": "proved",
   "theorems": [
    "Opcua.EventFilter.C91_fields",
    "Opcua.EventFilter.C91_missing"
   ],
   "note": "Fields in memory; their encoding is covered by the codec properties."
  },
  {
   "property": "C92",
   "status": "partial",
   "theorems": [
    "Opcua.Endpoint.C92_pinned_partial",
    "Opcua.Endpoint.C92_fails"
   ],
   "note": "holds for clients that ask for a policy and a mode; a stripped list downgrades every other client, although CreateSession returns the full list (negation)"
  },
  {
   "property": "C93",
   "status": "partial",
   "theorems": [
    "Opcua.Endpoint.C93_sealed_partial",
    "Opcua.Endpoint.C93_server",
    "Opcua.Endpoint.C93_encrypted",
    "Opcua.Endpoint.C93_fails",
    "Opcua.Endpoint.C93_signed_fails"
   ],
   "note": "holds with the server's own list, for RSA token policies and on encrypted channels that were asked for; a list that says None for the token policy makes the client send the password as it is (negations)"
  },
  {
   "property": "C94",
   "status": "partial",
   "theorems": [
    "Opcua.Endpoint.C94_vouched",
    "Opcua.Endpoint.C94_offered",
    "Opcua.Endpoint.C94_possession",
    "Opcua.Endpoint.C94_password",
    "Opcua.Endpoint.C94_login_partial",
    "Opcua.Endpoint.C94_noPanic_partial",
    "Opcua.Endpoint.C94_panic_fails",
    "Opcua.Endpoint.C94_issued_fails",
    "Opcua.Endpoint.C94_issuedPolicy_fails"
   ],
   "note": "vouching, endpoints, key possession and encrypted passwords for every request; logging in for anonymous, user name and certificate identities; issued tokens have no policy and are taken under the wrong one; an authenticator's own error crashes the process (negations)"
  },
  {
   "property": "C95",
   "status": "partial",
   "theorems": [
    "Opcua.Call.C95_arguments",
    "Opcua.Call.C95_handles",
    "Opcua.Call.C95_frame",
    "Opcua.Call.C95_mismatch",
    "Opcua.Call.C95_call",
    "Opcua.Call.C95_object_fails",
    "Opcua.DataChange.C95_resend"
   ],
   "note": "arguments, ownership, aligned handles, frame and ResendData proved for all inputs; the object is not checked to have the method (negation)"
  },
  {
   "property": "C96",
   "status": "partial",
   "theorems": [
    "Opcua.Certificate.C96_chain",
    "Opcua.Certificate.C96_trusted",
    "Opcua.Certificate.C96_unreadable",
    "Opcua.Certificate.C96_host",
    "Opcua.Certificate.C96_revocation_partial",
    "Opcua.Certificate.C96_accepts",
    "Opcua.Certificate.C96_skipVerify",
    "Opcua.Certificate.C96_skipOpen",
    "Opcua.Certificate.C96_rejected",
    "Opcua.Certificate.C96_status",
    "Opcua.Certificate.C96_open",
    "Opcua.Certificate.C96_lists_fails"
   ],
   "note": "trust, chain, period, usage, host, fail-closed reading, acceptance of trusted certificates proved over the contract of crypto/x509; revocation only against the first list in force of an issuer (negation for a second list)"
  },
  {
   "property": "C97",
   "status": "partial",
   "theorems": [
    "Opcua.Certificate.C97_uri_partial",
    "Opcua.Certificate.C97_other_fails",
    "Opcua.Certificate.C97_none_fails"
   ],
   "note": "the URI is one of the certificate in the request; that this is the certificate of the channel is not checked (negations)"
  },
  {
   "property": "C98",
   "status": "partial",
   "theorems": [
    "Opcua.NodeSet.C98_table",
    "Opcua.NodeSet.C98_nodes",
    "Opcua.NodeSet.C98_others",
    "Opcua.NodeSet.C98_references",
    "Opcua.NodeSet.C98_browseName",
    "Opcua.NodeSet.C98_distinct",
    "Opcua.NodeSet.C98_portable",
    "Opcua.NodeSet.C98_displayName_partial",
    "Opcua.NodeSet.C98_displayNameText",
    "Opcua.NodeSet.C98_displayName_fails",
    "Opcua.NodeSet.C98_outside_fails",
    "Opcua.NodeSet.C98_malformed_fails",
    "Opcua.NodeSet.C98_unparsed_fails",
    "Opcua.NodeSet.C98_forward_fails",
    "Opcua.NodeSet.C98_element_fails"
   ],
   "note": "Identifiers, references and browse names are translated by URI, for all files and tables (C98_nodes, C98_references, C98_browseName, C98_table, C98_others, C98_distinct, C98_portable). Not so: indexes outside the file's table and unparsable indexes are accepted, unparsable identifiers are stored as nil, display names keep XML escapes, IsForward=\"0\" is taken as forward, unknown elements crash."
  },
  {
   "property": "C99",
   "status": "partial",
   "theorems": [
    "Opcua.NodeSet.C99_scalar_partial",
    "Opcua.NodeSet.C99_array_partial",
    "Opcua.NodeSet.C99_abstract_partial",
    "Opcua.NodeSet.C99_text_partial",
    "Opcua.NodeSet.C99_typed",
    "Opcua.NodeSet.C99_arguments",
    "Opcua.NodeSet.C99_enum_partial",
    "Opcua.NodeSet.C99_stored",
    "Opcua.NodeSet.C99_nodeId_fails",
    "Opcua.NodeSet.C99_qualifiedName_fails",
    "Opcua.NodeSet.C99_subtype_fails",
    "Opcua.NodeSet.C99_rank_fails",
    "Opcua.NodeSet.C99_enum_fails",
    "Opcua.NodeSet.C99_default_fails",
    "Opcua.NodeSet.C99_extension_fails"
   ],
   "note": "Plain built-in scalars and arrays, abstract number types, arguments (with translated types) and enumerations of earlier files survive. Not so: NodeId and QualifiedName values are not translated; values of subtypes, of ranks other than -1 and 1, of enumerations in the same file and of variables without DataType are dropped; unknown structures in Range, EUInformation, Argument and EnumValueType variables crash."
  },
  {
   "property": "C100",
   "status": "partial",
   "theorems": [
    "Opcua.Dial.C100_call",
    "Opcua.Dial.C100_dial_partial",
    "Opcua.Dial.C100_key_fails",
    "Opcua.Dial.C100_type_fails",
    "Opcua.Dial.C100_table_fails",
    "Opcua.Dial.C100_mode_fails",
    "Opcua.Dial.C100_size_fails",
    "Opcua.Dial.C100_password_fails"
   ],
   "note": "Fails: a server can crash the client with a certificate whose key is not RSA, a good response of the wrong type, a namespace table that is no array of strings, a policy with mode None and no certificate, an RSA key as small as the padding; on an unsecured endpoint such a key makes building the password token run for ever. Proved: exactly which responses crash a service call; without these Dial neither panics nor hangs, whatever else the server does."
  },
  {
   "property": "C101",
   "status": "partial",
   "theorems": [
    "Opcua.Dial.C101_sound",
    "Opcua.Dial.C101_complete_partial",
    "Opcua.Dial.C101_race_fails",
    "Opcua.Dial.C101_header_fails",
    "Opcua.Dial.C101_tables_fails"
   ],
   "note": "Soundness is proved for every server. Completeness holds for healthy servers; it fails by a race when discovery ends, if the OpenSecureChannel response has an additional header, and the namespace table is silently left at one entry if it cannot be read."
  },
  {
   "property": "C102",
   "status": "partial",
   "theorems": [
    "Opcua.Dial.C102_dial",
    "Opcua.Dial.C102_discovery_partial",
    "Opcua.Dial.C102_discovery_fails",
    "Opcua.Dial.C102_close_partial",
    "Opcua.Dial.C102_closeSession_fails",
    "Opcua.Dial.C102_closeChannel_fails"
   ],
   "note": "Proved for the session connection of Dial, and for discovery once its channel is open. Fails: an error during the opening of the discovery channel leaks its connection; Close leaks the connection if CloseSession fails, and if CloseSecureChannel fails (reporting success)."
  },
  {
   "property": "C103",
   "status": "partial",
   "theorems": [
    "Opcua.PollGroup.C103_revised",
    "Opcua.PollGroup.C103_period",
    "Opcua.PollGroup.C103_nan_fails",
    "Opcua.PollGroup.C103_slow_fails",
    "Opcua.PollGroup.C103_group_partial",
    "Opcua.PollGroup.C103_atMost",
    "Opcua.PollGroup.C103_deleted",
    "Opcua.PollGroup.C103_tick_partial",
    "Opcua.PollGroup.C103_overlap_fails",
    "Opcua.PollGroup.C103_disabled_fails"
   ],
   "note": "Proved: the revision, the period of the timer to the millisecond, at most one read per tick in every interleaving, none after deletion; exactly one read per tick if services on one item do not overlap. Fails: two overlapping requests can leave an item in two groups, or disabled and still polled; NaN; periods beyond int64 nanoseconds."
  },
  {
   "property": "C104",
   "status": "partial",
   "theorems": [
    "Opcua.PollGroup.C104_partial",
    "Opcua.PollGroup.C104_delete_fails",
    "Opcua.PollGroup.C104_rate_fails"
   ],
   "note": "Proved for all interleavings in which no item is deleted while another service works on it, with a least sampling interval of at least 1 ms. Fails: deletion that meets Modify or SetMonitoringMode (nil subscription); a least interval below 1 ms (ticker with period 0)."
  },
  {
   "property": "C105",
   "status": "partial",
   "theorems": [
    "Opcua.ServerLife.C105_once",
    "Opcua.ServerLife.C105_error",
    "Opcua.ServerLife.C105_halted_partial",
    "Opcua.ServerLife.C105_finished",
    "Opcua.ServerLife.C105_bounded",
    "Opcua.ServerLife.C105_single_partial",
    "Opcua.ServerLife.C105_grace",
    "Opcua.ServerLife.C105_backoff",
    "Opcua.ServerLife.C105_twice_fails",
    "Opcua.ServerLife.C105_closeFirst_fails",
    "Opcua.ServerLife.C105_retry_fails",
    "Opcua.ServerLife.C105_fatal_fails"
   ],
   "note": "C105_twice_fails: a second Close panics (and cuts the grace period short). C105_closeFirst_fails, C105_retry_fails, C105_fatal_fails: ListenAndServe after Close returns BadInternalError; a server whose port was in use can never be started; an Accept error that is no timeout stops accepting while the server says that it runs and keeps the port. Proved: at most one call serves, errors only, BadServerHalted after Close of an accepting server, everything ends, grace period, pauses."
  },
  {
   "property": "C106",
   "status": "partial",
   "theorems": [
    "Opcua.Diagnostics.C106_sessions",
    "Opcua.Diagnostics.C106_subscriptions",
    "Opcua.Diagnostics.C106_disabled",
    "Opcua.Diagnostics.C106_nodes_partial",
    "Opcua.Diagnostics.C106_orphan_fails"
   ],
   "note": "C106_orphan_fails: a session that ends takes the diagnostics nodes of its living subscriptions with it. Counts, session nodes and the server array are proved for every history with fresh ids; subscription nodes if no session ends before its subscriptions."
  },
  {
   "property": "C107",
   "status": "partial",
   "theorems": [
    "Opcua.Diagnostics.C107_access",
    "Opcua.Diagnostics.C107_right_partial",
    "Opcua.Diagnostics.C107_other_fails",
    "Opcua.Diagnostics.C107_history"
   ],
   "note": "C107_other_fails: mode, policy and certificate shown are those of the reading session. Access and history are proved; the values if the two channels agree or for the fields that do not tell these."
  },
  {
   "property": "C108",
   "status": "partial",
   "theorems": [
    "Opcua.Diagnostics.C108_services_partial",
    "Opcua.Diagnostics.C108_total_partial",
    "Opcua.Diagnostics.C108_uncounted_fails",
    "Opcua.Diagnostics.C108_rejected_partial",
    "Opcua.Diagnostics.C108_security_partial",
    "Opcua.Diagnostics.C108_rejected_fails",
    "Opcua.Diagnostics.C108_bound",
    "Opcua.Diagnostics.C108_alone_partial",
    "Opcua.Diagnostics.C108_race_fails"
   ],
   "note": "C108_uncounted_fails (HistoryRead, Cancel, CloseSession), C108_rejected_fails (exits without increment), C108_race_fails (lost update). Counts are proved for requests handled one after the other and the nineteen counted services; no counter ever exceeds what happened."
  },
  {
   "property": "C109",
   "status": "partial",
   "theorems": [
    "Opcua.Structs.C109_fields_partial",
    "Opcua.Structs.C109_flags_fails",
    "Opcua.Structs.C109_layout_partial",
    "Opcua.Structs.C109_roundtrip_partial",
    "Opcua.Structs.C109_guid_fails",
    "Opcua.Structs.C109_enumerations",
    "Opcua.Structs.C109_enumerated_fields"
   ],
   "note": "All 284 structures have the names and fields of the schema and all 45 enumerations its values; every structure without a Guid has the layout of the schema in depth and round trips. Fails: the flags in FieldMetaData take 32 bits instead of 16 (C109_flags_fails), and the ten structures that hold a Guid can be neither sent nor received (C109_guid_fails)."
  },
  {
   "property": "C110",
   "status": "partial",
   "theorems": [
    "Opcua.Structs.C110_init",
    "Opcua.Structs.C110_encoding_partial",
    "Opcua.Structs.C110_program_fails",
    "Opcua.Structs.C110_missing_fails",
    "Opcua.Structs.C110_roundtrip_partial"
   ],
   "note": "init never panics and gives each structure its own id; ids are those of the address space for all encodings but three, one of them abstract. Fails: ProgramDiagnostic2DataType is registered under 15397 instead of 24034 (C110_program_fails), UnsignedRationalNumber is missing (C110_missing_fails)."
  },
  {
   "property": "C111",
   "status": "proved",
   "theorems": [
    "Opcua.Messages.C111_services",
    "Opcua.Messages.C111_request",
    "Opcua.Messages.C111_response",
    "Opcua.Messages.C111_supported",
    "Opcua.Messages.C111_ids",
    "Opcua.Messages.C111_unknown"
   ],
   "note": "For all services of the client and all contents of the messages. Which responses a handler makes is taken from the text of the handlers; which of them it sends when is the matter of the properties of the services. Chunking and security of messages are C16 to C27."
  },
  {
   "property": "C112",
   "status": "partial",
   "theorems": [
    "Opcua.MultiState.C112_in_step_partial",
    "Opcua.MultiState.C112_unknown_fails",
    "Opcua.MultiState.C112_kind_fails",
    "Opcua.MultiState.C112_rounded_fails",
    "Opcua.MultiState.C112_range_fails",
    "Opcua.MultiState.C112_crash_fails",
    "Opcua.MultiState.C112_no_crash_partial",
    "Opcua.MultiState.C112_race_fails",
    "Opcua.MultiState.C112_same_value_partial"
   ],
   "note": "in step for any sequence of writes of values of the enumeration and for two writers of one value; fails: unknown values and values of other types are stored and answered with Good, fractions and large uint64 take the text of another value, the index range is ignored, an enumeration that is not set ends the server, two writers of different values leave value and text out of step"
  },
  {
   "property": "C113",
   "status": "partial",
   "theorems": [
    "Opcua.MultiState.C113_property_partial",
    "Opcua.MultiState.C113_component_partial",
    "Opcua.MultiState.C113_subtype_fails",
    "Opcua.MultiState.C113_hidden_fails",
    "Opcua.MultiState.C113_behavior_partial"
   ],
   "note": "FindComponent and FindProperty are sound, and complete when every property of the name is a variable; fails: subtypes of HasComponent are not followed, a node that is no variable hides the property behind it"
  },
  {
   "property": "C114",
   "status": "partial",
   "theorems": [
    "Opcua.Discovery.C114_servers",
    "Opcua.Discovery.C114_endpoints",
    "Opcua.Discovery.C114_session",
    "Opcua.Discovery.C114_open_partial",
    "Opcua.Discovery.C114_discovery_partial",
    "Opcua.Discovery.C114_crash_fails",
    "Opcua.Discovery.C114_deadlock_fails",
    "Opcua.Discovery.C114_race_fails",
    "Opcua.Discovery.C114_progress_partial"
   ],
   "note": "the answers of FindServers, GetEndpoints and CreateSession for every history; listed endpoints can be opened if the server has a URL; no standstill once the list is made or while nobody closes the server; fails: Close during the first request stops the server for good (the read lock is taken twice), two first requests race, a description without discovery URLs ends the server"
  },
  {
   "property": "C115",
   "status": "partial",
   "theorems": [
    "Opcua.SelfInfo.C115_published",
    "Opcua.SelfInfo.C115_types_partial",
    "Opcua.SelfInfo.C115_types_fails",
    "Opcua.SelfInfo.C115_limits_partial",
    "Opcua.SelfInfo.C115_triggering_fails",
    "Opcua.SelfInfo.C115_event_history_fails",
    "Opcua.SelfInfo.C115_zero_limit_fails",
    "Opcua.SelfInfo.C115_history_fails",
    "Opcua.SelfInfo.C115_history_partial",
    "Opcua.SelfInfo.C115_crash_fails",
    "Opcua.SelfInfo.C115_session_arrays_fails"
   ],
   "note": "Proved that every variable telling configuration or state is read as such, that all but two values have their declared type, and that published limits are the enforced ones. Negated: MaxReturnDataValues and MaxReturnEventValues hold a Boolean; SetTriggering has no limit; the history of events uses the limit for data; a limit of zero is published and refuses everything; a server with a historian says it has none; capabilities without limits crash New; the session diagnostics arrays are never filled. Not modelled: the continuation points in use (C39 has the browse ones), timestamps, the race of reading srv.state without the lock."
  },
  {
   "property": "C116",
   "status": "partial",
   "theorems": [
    "Opcua.History.C116_recorded",
    "Opcua.History.C116_seen",
    "Opcua.History.C116_genuine",
    "Opcua.History.C116_order_fails",
    "Opcua.History.C116_order_partial",
    "Opcua.History.C116_error_fails",
    "Opcua.History.C116_source_time_fails",
    "Opcua.History.C116_blocked_fails",
    "Opcua.History.C116_deadlock_fails",
    "Opcua.History.C116_handler_fails",
    "Opcua.History.C116_dispatch"
   ],
   "note": "Proved for all schedules: with a historian that takes every value the history is the values stored while Historizing was on, in order, and what a client read is recorded already; nothing else is recorded; the dispatch of HistoryRead. Timestamps are in order only with one writer at a time. Negated: concurrent writers make timestamps run backwards; a refused value is reported Good; the source timestamp a client writes is replaced; a slow historian blocks readers, one that reads the variable deadlocks; variables with a read handler are never recorded. Not modelled: events (WriteEvent is never called), the initial value."
  },
  {
   "property": "C117",
   "status": "partial",
   "theorems": [
    "Opcua.Attributes.C117_mandatory",
    "Opcua.Attributes.C117_value",
    "Opcua.Attributes.C117_absent",
    "Opcua.Attributes.C117_optional",
    "Opcua.Attributes.C117_hidden",
    "Opcua.Attributes.C117_no_session",
    "Opcua.Attributes.C117_items_partial",
    "Opcua.Attributes.C117_encoding_fails",
    "Opcua.Attributes.C117_range_fails",
    "Opcua.Attributes.C117_role_permissions_fails",
    "Opcua.Attributes.C117_type_value_fails",
    "Opcua.Attributes.C117_items_fails"
   ],
   "note": "Proved for every class, attribute number and user: mandatory attributes are served from the right field in the right type, attributes the class does not have are refused, hidden nodes look missing, what is read can be monitored. Negated: the name Default Binary is refused (C117_encoding_fails), ranges of array attributes (C117_range_fails), role permissions of nodes that use those of the server are shown as empty (C117_role_permissions_fails), the value of a variable type is never served (C117_type_value_fails), two attributes can be monitored but not read (C117_items_fails)."
  },
  {
   "property": "C118",
   "status": "partial",
   "theorems": [
    "Opcua.Suites.C118_profile",
    "Opcua.Suites.C118_signatures",
    "Opcua.Suites.C118_passwords",
    "Opcua.Suites.C118_blocks",
    "Opcua.Suites.C118_symmetric",
    "Opcua.Suites.C118_asymmetric",
    "Opcua.Suites.C118_requests",
    "Opcua.Suites.C118_responses",
    "Opcua.Suites.C118_key_block",
    "Opcua.Suites.C118_opening",
    "Opcua.Suites.C118_key_length_fails",
    "Opcua.Suites.C118_nonce_fails",
    "Opcua.Suites.C118_issued_fails"
   ],
   "note": "Proved that all switches agree with the profiles and that messages, openings, signatures and passwords work for all five policies under the contract of the primitives. Negated: key lengths (C118_key_length_fails) and nonce lengths (C118_nonce_fails) are not checked, issued tokens are never decrypted (C118_issued_fails)."
  },
  {
   "property": "C119",
   "status": "partial",
   "theorems": [
    "Opcua.SubCounters.C119_views",
    "Opcua.SubCounters.C119_session_views",
    "Opcua.SubCounters.C119_modified",
    "Opcua.SubCounters.C119_republished",
    "Opcua.SubCounters.C119_responses",
    "Opcua.SubCounters.C119_notifications",
    "Opcua.SubCounters.C119_items",
    "Opcua.SubCounters.C119_overflow_partial",
    "Opcua.SubCounters.C119_unacknowledged_partial",
    "Opcua.SubCounters.C119_next",
    "Opcua.SubCounters.C119_settings",
    "Opcua.SubCounters.C119_session_counts",
    "Opcua.SubCounters.C119_unacknowledged_fails",
    "Opcua.SubCounters.C119_enabled_fails",
    "Opcua.SubCounters.C119_discarded_fails",
    "Opcua.SubCounters.C119_overflow_fails",
    "Opcua.SubCounters.C119_session_array_fails",
    "Opcua.SubCounters.C119_security_name_fails"
   ],
   "note": "Proved for the views, ModifyCount, the republish counters, the publish counters, the notification counters, MonitoredItemCount and NextSequenceNumber; UnacknowledgedMessageCount only as of the last response, MonitoringQueueOverflowCount only for queues of more than one. Negated: acknowledgements (C119_unacknowledged_fails), EnableCount and DisableCount (C119_enabled_fails), DiscardedMessageCount (C119_discarded_fails), queues of one (C119_overflow_fails), the array of a session (C119_session_array_fails), the name SecurityPolicyUri (C119_security_name_fails). DisabledMonitoredItemCount is negated under the claims on monitored items."
  },
  {
   "property": "C120",
   "status": "partial",
   "theorems": [
    "Opcua.Options.C120_connection_partial",
    "Opcua.Options.C120_session_partial",
    "Opcua.Options.C120_checks",
    "Opcua.Options.C120_wanted",
    "Opcua.Options.C120_files_taken",
    "Opcua.Options.C120_unreadable",
    "Opcua.Options.C120_order",
    "Opcua.Options.C120_timeoutHint_fails",
    "Opcua.Options.C120_diagnosticsHint_fails",
    "Opcua.Options.C120_responseSize_fails",
    "Opcua.Options.C120_discovery_fails",
    "Opcua.Options.C120_documented_fails",
    "Opcua.Options.C120_otherKey_fails",
    "Opcua.Options.C120_serverLimits",
    "Opcua.Options.C120_serverChecks",
    "Opcua.Options.C120_entry_partial",
    "Opcua.Options.C120_closed",
    "Opcua.Options.C120_serverRest",
    "Opcua.Options.C120_new",
    "Opcua.Options.C120_issued_fails",
    "Opcua.Options.C120_nilFunc_fails"
   ],
   "note": "Proved: after any options in any order the Hello message, connect timeout, token lifetimes, names, session timeout, certificate, key, identity, arguments of the certificate validation and the endpoint looked for are those chosen last or the defaults; options about different things may be reordered; files that cannot be read end Dial; for the server limits, checks, diagnostics, roles, permissions, historian, and that a user is let in exactly by the function chosen last for this kind of user. Violated by the code, with witnesses: WithTimeoutHint and WithDiagnosticsHint have no effect; CreateSession always names 64 Mb as greatest response; discovery inside Dial ignores connect timeout and limits; documented defaults of two options are wrong; a user key that is not RSA makes Dial panic, and such a client key is silently dropped; no server option sets the authenticator for issued identities; nil functions, providers and capabilities panic."
  },
  {
   "property": "C121",
   "status": "partial",
   "theorems": [
    "Opcua.Ending.C121_answered_partial",
    "Opcua.Ending.C121_order",
    "Opcua.Ending.C121_last",
    "Opcua.Ending.C121_openTold",
    "Opcua.Ending.C121_frame",
    "Opcua.Ending.C121_discoveryTold",
    "Opcua.Ending.C121_untold_fails",
    "Opcua.Ending.C121_tooLarge_fails",
    "Opcua.Ending.C121_inPart_fails",
    "Opcua.Ending.C121_silent_fails",
    "Opcua.Ending.C121_crash_fails",
    "Opcua.Ending.C121_noCrash_partial",
    "Opcua.Ending.C121_ended_partial",
    "Opcua.Ending.C121_reason_fails",
    "Opcua.Ending.C121_silence",
    "Opcua.Ending.C121_later_partial",
    "Opcua.Ending.C121_hang_fails",
    "Opcua.Ending.C121_oneByOne_fails",
    "Opcua.Ending.C121_noResponse",
    "Opcua.Ending.C121_socket_fails",
    "Opcua.Ending.C121_close"
   ],
   "note": "Answers are a sublist of the requests in order and, for requests whose answers fit, exactly the requests; nothing follows the closing; reasons of a failed Open reach the client's reader; callers waiting at the end can all return, and no call gets a response afterwards. False: once the channel is open the server gives no reason (C121_untold_fails); a response that is too large or cannot be encoded, a second OpenSecureChannel, and a failed decryption of a password close the connection without an answer (C121_tooLarge_fails, C121_inPart_fails, C121_silent_fails); no caller learns the reason (C121_reason_fails); an Error frame of 16 bytes with the code Good ends the client's process, secured channel or not (C121_crash_fails); the 33rd call after the end hangs for ever (C121_hang_fails, C121_oneByOne_fails); Client.Close after the end leaves the socket open (C121_socket_fails)."
  },
  {
   "property": "C122",
   "status": "partial",
   "theorems": [
    "Opcua.CertList.C122_set",
    "Opcua.CertList.C122_parents",
    "Opcua.CertList.C122_pem",
    "Opcua.CertList.C122_issuer_partial",
    "Opcua.CertList.C122_issuer_fails",
    "Opcua.CertList.C122_stranger_fails",
    "Opcua.CertList.C122_nil_partial"
   ],
   "note": "set behaviour, subjects, PEM result and exact parents proved for all calls; an issuer without key identifier is missed for a child that names one (C122_issuer_fails), a stranger with the same key identifier is returned (C122_stranger_fails); nil and zero lists panic on AddCert"
  },
  {
   "property": "C123",
   "status": "partial",
   "theorems": [
    "Opcua.Names.C123_text",
    "Opcua.Names.C123_unknown",
    "Opcua.Names.C123_severity",
    "Opcua.Names.C123_info_fails",
    "Opcua.Names.C123_tell_fails",
    "Opcua.Names.C123_tell_partial",
    "Opcua.Names.C123_enum",
    "Opcua.Names.C123_enum_only",
    "Opcua.Names.C123_flags_fails",
    "Opcua.StatusCode.C123_bits",
    "Opcua.StatusCode.C123_historian_fails"
   ],
   "note": "texts, names, masks and exactness proved for all numbers; codes with information bits lose their text, two pairs of codes share one, unions of flags have no name, two bits of the historian are not where the standard has them (one lies outside its mask and means a limit)"
  },
  {
   "property": "C124",
   "status": "partial",
   "theorems": [
    "Opcua.ClientRecv.C124_round_trip",
    "Opcua.ClientRecv.C124_open_message",
    "Opcua.ClientRecv.C124_open_plain",
    "Opcua.ClientRecv.C124_authentic",
    "Opcua.ClientRecv.C124_keys_partial",
    "Opcua.ClientRecv.C124_forged_fails",
    "Opcua.ClientRecv.C124_any_token_fails",
    "Opcua.ClientRecv.C124_replay_fails",
    "Opcua.ClientRecv.C124_mixed_fails",
    "Opcua.ClientRecv.C124_channel",
    "Opcua.ClientRecv.C124_limits",
    "Opcua.ClientRecv.C124_crash_fails",
    "Opcua.ClientRecv.C124_none_partial",
    "Opcua.ClientRecv.C124_error_fails"
   ],
   "note": "The round trip, authenticity per frame, the limits and the check of the channel id hold. It fails while Open waits for its response: the nonces are still nil, so a chunk under any token but 0 is taken with a key everybody can compute, and the key stays in use after Open (C124_forged_fails); a chunk for channel 0 and token 0 ends the process (C124_crash_fails). Any token id is taken (C124_any_token_fails), chunks are taken again (C124_replay_fails) and mixed (C124_mixed_fails), and an Error frame needs no key (C124_error_fails). Without MSG chunks before the first response all keys come from exchanged nonces (C124_keys_partial)."
  },
  {
   "property": "C125",
   "status": "proved",
   "theorems": [
    "Opcua.Conversation.C125_unbroken",
    "Opcua.Conversation.C125_in_order",
    "Opcua.Conversation.C125_own_answer",
    "Opcua.Conversation.C125_once",
    "Opcua.Conversation.C125_complete",
    "Opcua.Conversation.C125_progress",
    "Opcua.Conversation.C125_server_reads",
    "Opcua.Conversation.C125_client_reads",
    "Opcua.Conversation.C125_answers",
    "Opcua.Conversation.C125_numbering"
   ],
   "note": "One channel between two renewals of the token; deadlines and lost connections are in C35, C78 and C121. Values that the codec does not carry (see C12) and messages above the limits are excluded by hypothesis; a call above the limits fails before it matters to others except for C30."
  },
  {
   "property": "C126",
   "status": "partial",
   "theorems": [
    "Opcua.PublishFlow.C126_conserved",
    "Opcua.PublishFlow.C126_priority",
    "Opcua.PublishFlow.C126_more",
    "Opcua.PublishFlow.C126_status_first",
    "Opcua.PublishFlow.C126_turn",
    "Opcua.PublishFlow.C126_modified",
    "Opcua.PublishFlow.C126_queued",
    "Opcua.PublishFlow.C126_room",
    "Opcua.PublishFlow.C126_drain",
    "Opcua.PublishFlow.C126_waits_partial",
    "Opcua.PublishFlow.C126_stranded_fails"
   ],
   "note": "Proved: every request of a session that is not closed is answered once or waits (C126_conserved); status changes first; the hungry subscription of highest priority of the session gets the request; DeleteSubscriptions of the last subscription answers all that wait; a turn of a timer answers the oldest request that is not overdue exactly when the subscription has use for it, also with counts set by ModifySubscription (C126_turn, C126_modified); at most 64 requests wait, and the oldest gives way (C126_queued, C126_room). Waiting only with a subscription is proved when one session creates subscriptions (C126_waits_partial) and refuted otherwise: sm.Len() counts the subscriptions of all sessions, so the request of a session without any waits for ever (C126_stranded_fails). Writes succeed and steps are atomic in this model."
  },
  {
   "property": "C127",
   "status": "proved",
   "theorems": [
    "Opcua.Closing.C127_close",
    "Opcua.Closing.C127_stays_open",
    "Opcua.Closing.C127_too_big",
    "Opcua.Closing.C127_both_or_neither"
   ],
   "note": "Token renewal, deadlines and failures of the connection are not in this machine; ch.conn.Close() is the end of what the client writes."
  },
  {
   "property": "C128",
   "status": "partial",
   "theorems": [
    "Opcua.Pool.C128_linearizable_partial",
    "Opcua.Pool.C128_whole",
    "Opcua.Pool.C128_fresh_partial",
    "Opcua.Pool.C128_range_fails"
   ],
   "note": "Proved for all histories in which no part of a variable is written (C128_whole) and, more generally, where no write with an index range is under way together with another change of the same variable. The general claim is false: C128_range_fails. Variables with handlers of their own or a historian are left out; permissions are those of other properties."
  },
  {
   "property": "C129",
   "status": "partial",
   "theorems": [
    "Opcua.Delivery.C129_assembled_partial",
    "Opcua.Delivery.C129_recover_partial",
    "Opcua.Delivery.C129_write_fails",
    "Opcua.Delivery.C129_republish_fails",
    "Opcua.Delivery.C129_room_fails"
   ],
   "note": "Proved for clients and networks as described. Not so without: a response that cannot be written loses its values and repeats its number (C129_write_fails), a lost answer to Republish loses the message (C129_republish_fails), and the 129th unacknowledged message pushes the first one out (C129_room_fails)."
  },
  {
   "property": "C130",
   "status": "partial",
   "theorems": [
    "Opcua.Authority.C130_apart",
    "Opcua.Authority.C130_authority_partial",
    "Opcua.Authority.C130_noise",
    "Opcua.Authority.C130_injected_fails",
    "Opcua.Authority.C130_replay_fails",
    "Opcua.Authority.C130_hijacked_fails",
    "Opcua.Authority.C130_obeyed"
   ],
   "note": "Proved for all histories: every effect is traced to a permitted order and an earlier login on the same connection, both sealed with the key of the channel (and the algorithms of the policy under which that key was made) or carried by OPN frames. The exception of OPN frames is real: a clear one is obeyed as any request (C130_injected_fails), one signed with any key at all takes the channel over (C130_hijacked_fails), and a recorded chunk is obeyed again (C130_replay_fails). An authorised client is obeyed: C130_obeyed. A new channel leaves the others as they were: C130_apart."
  },
  {
   "property": "C131",
   "status": "partial",
   "theorems": [
    "Opcua.Alarms.C131_order_partial",
    "Opcua.Alarms.C131_delivered_partial",
    "Opcua.Alarms.C131_serving_partial",
    "Opcua.Alarms.C131_burst_fails",
    "Opcua.Alarms.C131_stop_fails",
    "Opcua.Alarms.C131_area_fails",
    "Opcua.Alarms.C131_changed",
    "Opcua.Alarms.C131_cycle_fails"
   ],
   "note": "Proved for all histories in which no object has two notifiers, filters use what is implemented (C58), the subscription's queue of 1024 events does not overflow and the client is careful (C129). Fails otherwise: bursts are lost silently, a bad filter of one client stops the server for all, listeners at a second notifier hear nothing. A modified item gets the fields asked for now: C131_changed. With a cycle of notifiers the first event ends everything: C131_cycle_fails."
  },
  {
   "property": "C132",
   "status": "partial",
   "theorems": [
    "Opcua.Watch.C132_last_partial",
    "Opcua.Watch.C132_band_partial",
    "Opcua.Watch.C132_asked_partial",
    "Opcua.Watch.C132_soon_partial",
    "Opcua.Watch.C132_shrunk_fails",
    "Opcua.Watch.C132_ahead_fails"
   ],
   "note": "C132_last_partial, C132_asked_partial, C132_soon_partial for the default filter, C132_band_partial for absolute deadbands on signed numbers of up to 32 bits: after the last write, a poll, the sampling interval and a turn of the timer, the client knows the value, whatever came before. Excluded by hypothesis because the code fails there: a Modify that makes the queue too small while keeping the oldest values (C132_shrunk_fails: the newest value is thrown away and never reported again) and values dated ahead of the clock (C132_ahead_fails: they hold back all that follow). A message may be too small for all items (then the queue must be empty by hypothesis); responses that cannot be written lose values (C129_write_fails)."
  },
  {
   "property": "C133",
   "status": "partial",
   "theorems": [
    "Opcua.PublishTimer.C133_timer",
    "Opcua.PublishTimer.C133_gone",
    "Opcua.PublishTimer.C133_enabled",
    "Opcua.PublishTimer.C133_often_partial",
    "Opcua.PublishTimer.C133_seldom",
    "Opcua.PublishTimer.C133_fraction_fails",
    "Opcua.PublishTimer.C133_stale_fails"
   ],
   "note": "Proved: every subscription has exactly one goroutine that is not told to end, at the interval and counts confirmed last, and no other goroutine goes on (C133_timer, C133_gone); while nobody modifies it, it is published less than two times more than its interval in whole milliseconds fits into the time (C133_often_partial), and at least as often as it fits if the goroutine is prompt (C133_seldom). Refuted: the fraction of a millisecond is dropped, so 125.5 ms confirmed means every 125 ms (C133_fraction_fails); after ModifySubscription the old goroutine may go on at the old interval, select being random (C133_stale_fails)."
  },
  {
   "property": "C134",
   "status": "partial",
   "theorems": [
    "Opcua.SessionEnd.C134_silent",
    "Opcua.SessionEnd.C134_forgotten",
    "Opcua.SessionEnd.C134_waiting_fails",
    "Opcua.SessionEnd.C134_deleted",
    "Opcua.SessionEnd.C134_orphans",
    "Opcua.SessionEnd.C134_safe_partial",
    "Opcua.SessionEnd.C134_crash_fails",
    "Opcua.SessionEnd.C134_hang_fails",
    "Opcua.SessionEnd.C134_lives",
    "Opcua.SessionEnd.C134_points",
    "Opcua.SessionEnd.C134_expires"
   ],
   "note": "Proved: an ended session is never used again and hears nothing more (C134_silent); its end answers none of the requests that wait (C134_forgotten); CloseSession with DeleteSubscriptions removes them at once (C134_deleted); otherwise a subscription is gone after as many turns as its keep-alive and lifetime counts have together (C134_orphans); a session used in time is not ended by the server (C134_lives), one that is silent for longer than its timeout is (C134_expires); continuation points stay within the limit (C134_points); if no session ends while a service of it is under way, every service ends and the server never crashes (C134_safe_partial). Fails: waiting Publish requests are never answered; a Publish under way when its session is closed on another connection hangs for ever together with its connection; a Browse under way then crashes the server (nil map)."
  },
  {
   "property": "C135",
   "status": "proved",
   "theorems": [
    "Opcua.Delivery.C135_order",
    "Opcua.Watch.C135_watched",
    "Opcua.Watch.C135_arriving"
   ],
   "note": "Proved for any client and any losses: values assembled by message number follow the history of the variable (C135_watched; C135_order over any items), within each message and in order of arrival without Republish (C135_arriving, no bound on the number of messages). Numbers of messages below 2^32 where they are put in order by number."
  },
  {
   "property": "C136",
   "status": "partial",
   "theorems": [
    "Opcua.Answer.C136_progress",
    "Opcua.Answer.C136_room",
    "Opcua.Answer.C136_answers_partial",
    "Opcua.Answer.C136_as_sent",
    "Opcua.Answer.C136_numbers",
    "Opcua.Answer.C136_first_fails",
    "Opcua.Answer.C136_policy_fails",
    "Opcua.Answer.C136_renewal_fails"
   ],
   "note": "Proved: no history of frames makes an answer of any size go on for ever (C136_progress with C136_room); on a channel whose OPN frames only ask for new tokens under the policy of the channel no answer ends the process (C136_answers_partial), and the answer is then the message of C23/C24 sealed with the key in use (C136_as_sent). Missing, since false: nothing enforces that of OPN frames. One unauthenticated OPN frame with a service request ends the process on a fresh secured channel (C136_first_fails) and on an encrypting channel in use (C136_policy_fails); so does a renewal under a policy whose signatures have another size (C136_renewal_fails)."
  },
  {
   "property": "C137",
   "status": "partial",
   "theorems": [
    "Opcua.Secrecy.C137_requests",
    "Opcua.Secrecy.C137_responses_partial",
    "Opcua.Secrecy.C137_hijacked_fails"
   ],
   "note": "Requests are proved for all histories and all frames whatsoever: what is sent only on SignAndEncrypt channels to servers whose keys the attacker does not hold is never derivable. Responses are proved under the condition that the public key a connection has for its client was never the attacker's. What is missing, and false: that condition for a channel once opened; a server takes a new certificate, unchecked, from any OPN frame, so an injected renewal redirects later responses (C137_hijacked_fails). The model is symbolic: lengths, equal ciphertexts and the strength of the algorithms are outside."
  },
  {
   "property": "C138",
   "status": "partial",
   "theorems": [
    "Opcua.Secrecy.C138_responses_partial",
    "Opcua.Secrecy.C138_requests_partial",
    "Opcua.Secrecy.C138_client_partial",
    "Opcua.Secrecy.C138_injected_fails",
    "Opcua.Secrecy.C138_stranger_fails",
    "Opcua.Secrecy.C138_forged_fails"
   ],
   "note": "Proved in the symbolic model of C137 for all histories of frames an attacker can derive: responses taken by a client that got no chunk before its channel was open were sent by its server, though the attacker may hold the client's key; requests taken on a connection that got no OPN frame under the policy None and never had a public key of the attacker were sent by a client with such a key, and if it only ever had one public key by a client with that key. What is missing, and false: these conditions. OPN frames with a service request are taken under the policy None (C138_injected_fails) or signed by a stranger (C138_stranger_fails) on any open channel; a client takes chunks under keys made of two empty nonces before its channel is open (C138_forged_fails). Sequence numbers are left out, so nothing is said of how often a message is taken."
  },
  {
   "property": "C139",
   "status": "partial",
   "theorems": [
    "Opcua.Workers.C139_items",
    "Opcua.Workers.C139_answers",
    "Opcua.Workers.C139_order",
    "Opcua.Workers.C139_finish",
    "Opcua.Workers.C139_direct",
    "Opcua.Workers.C139_shared_fails",
    "Opcua.Workers.C139_own_fails"
   ],
   "note": "Proved: every path of the six closures stores its result and then counts down once (C139_items); answers, order and number at work (C139_answers, C139_order); every request is answered if the handlers return (C139_finish); services without items do not depend on the workers (C139_direct). C139_shared_fails: as many items as there are workers (four) whose handlers wait stop the item services of all clients, for ever if they wait for one of these. C139_own_fails: while a call of a client runs nothing else is read from its connection."
  },
  {
   "property": "C140",
   "status": "partial",
   "theorems": [
    "Opcua.Kept.C140_bounded",
    "Opcua.Kept.C140_silence",
    "Opcua.Kept.C140_total_partial",
    "Opcua.Kept.C140_groups_partial",
    "Opcua.Kept.C140_room",
    "Opcua.Kept.C140_oldest",
    "Opcua.Kept.C140_items_fails",
    "Opcua.Kept.C140_links_fails",
    "Opcua.Kept.C140_users_fails",
    "Opcua.Kept.C140_connections_fails",
    "Opcua.Kept.C140_default_fails",
    "Opcua.Kept.C140_slots_fails",
    "Opcua.Kept.C140_groups_fails"
   ],
   "note": "Bounded, for every history (C140_bounded): sessions and subscriptions by their limits when these are set, 64 waiting Publish requests and the limit of continuation points per session, 128 notifications per subscription, 1024 values per item; all of it together by the limits and the number of items (C140_total_partial); poll groups by the number of whole milliseconds up to a minute (C140_groups_partial). A limit refuses only what is beyond it (C140_room, C140_oldest). Missing, because the code does not do it: nothing bounds the monitored items of a subscription (C140_items_fails), the triggering links between two items, which may be added again and again (C140_links_fails), the list of users of a session, which grows with each ActivateSession (C140_users_fails), or connections (C140_connections_fails); without options there is no limit for sessions either (C140_default_fails); poll groups, with a goroutine and a ticker each, stay when their clients are gone (C140_groups_fails); a stranger can hold every session for an hour without activating one (C140_slots_fails)."
  },
  {
   "property": "C141",
   "status": "partial",
   "theorems": [
    "Opcua.Memory.C141_result",
    "Opcua.Memory.C141_proportion_partial",
    "Opcua.Memory.C141_closed_partial",
    "Opcua.Memory.C141_header_fails",
    "Opcua.Memory.C141_array_fails",
    "Opcua.Memory.C141_given_up_fails",
    "Opcua.Memory.C141_rows_fails",
    "Opcua.Memory.C141_cubes_fails"
   ],
   "note": "C141_proportion_partial, C141_closed_partial: when decoding succeeds, gives up no Variant and meets no dimension of zero, at most 136 bytes are asked for each byte read. Missing, because the code violates it: every ReadX allocates for the length in the message before the elements have arrived, so seven bytes in the header of any request ask for up to 2 GB before anybody is authenticated (C141_header_fails), five bytes for 189 GB (C141_array_fails); a DataValue does so and is decoded successfully (C141_given_up_fails); matrices and cubes of nothing are as large as their dimensions say (C141_rows_fails, C141_cubes_fails). Not modelled: size classes and the garbage collector."
  },
  {
   "property": "C142",
   "status": "partial",
   "theorems": [
    "Opcua.Picture.C142_described",
    "Opcua.Picture.C142_exists_partial",
    "Opcua.Picture.C142_type_partial",
    "Opcua.Picture.C142_element_partial",
    "Opcua.Picture.C142_path_partial",
    "Opcua.Picture.C142_hidden_fails",
    "Opcua.Picture.C142_type_fails",
    "Opcua.Picture.C142_unknown_type_fails",
    "Opcua.Picture.C142_dangling_fails"
   ],
   "note": "Proved for all address spaces: what Browse shows of a target is what Read gives. Proved with visible neighbours and no dangling references: the same nodes are unknown to both, type definitions are found by browsing, browse paths end where browsing along the names ends. Negated: browse paths find nodes that are hidden from the user (C142_hidden_fails), Browse tells hidden type definitions (C142_type_fails), reference types that are not in the table (C142_unknown_type_fails), a dangling reference makes a readable node unknown to Browse (C142_dangling_fails)."
  },
  {
   "property": "C143",
   "status": "partial",
   "theorems": [
    "Opcua.ItemBook.C143_settings_partial",
    "Opcua.ItemBook.C143_handles_partial",
    "Opcua.ItemBook.C143_notified_partial",
    "Opcua.ItemBook.C143_confirmed",
    "Opcua.ItemBook.C143_refused",
    "Opcua.ItemBook.C143_timestamps_fails",
    "Opcua.ItemBook.C143_mode_fails",
    "Opcua.ItemBook.C143_wrap_fails"
   ],
   "note": "Proved: settings of items, GetMonitoredItems, handles and bounds of notifications, confirmed queue sizes, refused requests, for every history with fewer than 2^32 items created. Fails in the code: ModifyMonitoredItems ignores TimestampsToReturn; monitoring modes that do not exist are confirmed Good and such items never report; once the counter of ids wraps an item can be confirmed with the id of another and be dropped."
  },
  {
   "property": "C144",
   "status": "partial",
   "theorems": [
    "Opcua.Disclosure.C144_session_partial",
    "Opcua.Disclosure.C144_told_partial",
    "Opcua.Disclosure.C144_blind_partial",
    "Opcua.Disclosure.C144_read",
    "Opcua.Disclosure.C144_switch_fails",
    "Opcua.Disclosure.C144_republish_fails",
    "Opcua.Disclosure.C144_foreign_fails",
    "Opcua.Disclosure.C144_history_fails",
    "Opcua.Disclosure.C144_hidden_fails"
   ],
   "note": "Proved for all histories in which nobody reaches for the subscriptions of others or reads history: what a session is told, it was activated for a user that may have it; if users change only to ones with at least the same rights, the user at that moment may have it; histories that differ only in values a session may not read look alike to it; Read is exact. Fails in the code: after ActivateSession with another user, queued values and later events of the former user's items are told to the new one; Republish and CreateMonitoredItems serve subscriptions of others; HistoryRead checks nothing; CreateMonitoredItems tells hidden nodes from missing ones."
  },
  {
   "property": "C145",
   "status": "partial",
   "theorems": [
    "Opcua.Deletion.C145_gone",
    "Opcua.Deletion.C145_only",
    "Opcua.Deletion.C145_browse_partial",
    "Opcua.Deletion.C145_type_fails",
    "Opcua.Deletion.C145_shared_fails",
    "Opcua.Deletion.C145_standard_fails",
    "Opcua.Deletion.C145_events_fails",
    "Opcua.Deletion.C145_circle_fails"
   ],
   "note": "Proved for all histories: a deleted node is unknown to every service until it is added again, and items on its value say so; the calls delete exactly the given nodes and, with children, what is under them; what stays keeps its attributes, values and references to nodes that stay; deleting a node that is nobody's type leaves every Browse of another node as it was without it. Fails in the code: instances of a deleted type cannot be browsed; children shared with others and, by DeleteNode, standard nodes are deleted; event items stay with the deleted object, tell its events and none of its successor; circles of children never end."
  },
  {
   "property": "C146",
   "status": "partial",
   "theorems": [
    "Opcua.SubBook.C146_has_partial",
    "Opcua.SubBook.C146_only_partial",
    "Opcua.SubBook.C146_news_partial",
    "Opcua.SubBook.C146_sweep_partial",
    "Opcua.SubBook.C146_refused",
    "Opcua.SubBook.C146_modes_partial",
    "Opcua.SubBook.C146_deleted_partial",
    "Opcua.SubBook.C146_left_fails",
    "Opcua.SubBook.C146_wrap_fails"
   ],
   "note": "Proved with less than 2^32 subscriptions asked for: the server's subscriptions and the clients' books agree in all settings, every end is announced, the minutely check finds nothing, results stand in place. Refused calls change nothing (no bound). Fails: the id counter wraps, refused calls advancing it, and the new subscription replaces one in use; a subscription kept at CloseSession can be used by nobody (no TransferSubscriptions) and its end goes to the queue of the closed session."
  },
  {
   "property": "C147",
   "status": "partial",
   "theorems": [
    "Opcua.SendOn.C147_sent_on_partial",
    "Opcua.SendOn.C147_hops_partial",
    "Opcua.SendOn.C147_plain",
    "Opcua.SendOn.C147_registry_partial",
    "Opcua.SendOn.C147_datavalue_fails",
    "Opcua.SendOn.C147_datavalue_inside_fails",
    "Opcua.SendOn.C147_expanded_fails",
    "Opcua.SendOn.C147_index_fails",
    "Opcua.SendOn.C147_null_fails",
    "Opcua.SendOn.C147_shape_fails",
    "Opcua.SendOn.C147_late_fails",
    "Opcua.SendOn.C147_unknown_fails",
    "Opcua.SendOn.C147_table_fails"
   ],
   "note": "Proved for all accepted bytes when the value keeps (Val.Keeps); the witnesses of _fails show that each exclusion is needed. The reader is given one more level of recursion than the first one had."
  },
  {
   "property": "C148",
   "status": "partial",
   "theorems": [
    "Opcua.Room.C148_no_longer_partial",
    "Opcua.Room.C148_no_longer",
    "Opcua.Room.C148_five_times",
    "Opcua.Room.C148_shortest_partial",
    "Opcua.Room.C148_registry",
    "Opcua.Room.C148_unread_fails",
    "Opcua.Room.C148_mask_fails"
   ],
   "note": "The bound holds for every type, byte string, history of registrations and table of namespaces, but for DataValues whose Variant could not be read: the decoder swallows the error and adds a status of four bytes (C148_unread_fails, C148_mask_fails); the factor is at most five (C148_five_times). Values that cannot be encoded at all are C147."
  },
  {
   "property": "C149",
   "status": "partial",
   "theorems": [
    "Opcua.Alone.C149_depth",
    "Opcua.Alone.C149_standard",
    "Opcua.Alone.C149_deep",
    "Opcua.Alone.C149_room",
    "Opcua.Alone.C149_alone_partial",
    "Opcua.Alone.C149_refused",
    "Opcua.Alone.C149_plain",
    "Opcua.Alone.C149_cut_plain",
    "Opcua.Alone.C149_cut_partial",
    "Opcua.Alone.C149_sequence_partial",
    "Opcua.Alone.C149_nesting_fails",
    "Opcua.Alone.C149_end_fails"
   ],
   "note": "Holds of every type and byte string as long as something is left over, for values and for refusals, and without condition for types in which no Variant, DataValue or ExtensionObject can occur. At the end of the input a DataValue cut off in its Variant is accepted with a status of its own (C149_end_fails). More room on the stack changes nothing but a crash for want of room, and fifteen frames per byte are enough with the structures of the library; there is no limit on nesting, so one frame per byte may be needed (C149_deep) and a long enough message overflows any stack (C149_nesting_fails). Whether decoding crashes otherwise (C10, C22) may depend on what follows and is not compared."
  }
 ]
}