{
 "claims": [
  {
   "property": "C01",
   "status": "partial",
   "theorems": [
    "LDL.c01_stream_in_bounds_partial",
    "LDL.c01_negative_seek_escapes",
    "LDL.c01_error_is_sticky",
    "LDL.c01_failure_is_reported",
    "LDL.c01_fails_iff_past_end",
    "LDL.c01_read_only"
   ],
   "note": "False for negative relative seeks (negation proved by c01_negative_seek_escapes); proved for all other operation sequences. Error latch and read-only parts proved for all sequences."
  },
  {
   "property": "C02",
   "status": "proved",
   "theorems": [
    "LDL.c02_fields_on_the_wire",
    "LDL.c02_le_denotes",
    "LDL.c02_round_trip",
    "LDL.c02_eui"
   ],
   "note": ""
  },
  {
   "property": "C03",
   "status": "proved",
   "theorems": [
    "LDL.c03_put_data",
    "LDL.c03_offsets"
   ],
   "note": ""
  },
  {
   "property": "C04",
   "status": "proved",
   "theorems": [
    "LDL.c04_parser_recovers"
   ],
   "note": ""
  },
  {
   "property": "C05",
   "status": "proved",
   "theorems": [
    "LDL.c05_put_join_request",
    "LDL.c05_parser_recovers"
   ],
   "note": ""
  },
  {
   "property": "C06",
   "status": "partial",
   "theorems": [
    "LDL.c06_wellformed_is_reported_partial",
    "LDL.c06_malformed_is_refused_partial",
    "LDL.c06_overrun_is_accepted",
    "LDL.c06_overrun_accepted_iff",
    "LDL.c06_memory_safe"
   ],
   "note": "False for frames whose declared option length exceeds the frame (negation c06_overrun_is_accepted); every other frame is covered, and the accepted malformed frames are characterised exactly."
  },
  {
   "property": "C07",
   "status": "proved",
   "theorems": [
    "LDL.c07_accepts_iff",
    "LDL.c07_fields",
    "LDL.c07_only_join_accepts"
   ],
   "note": ""
  },
  {
   "property": "C08",
   "status": "partial",
   "theorems": [
    "LDL.c08_parser_is_spec_partial",
    "LDL.c08_parser_is_spec_v10",
    "LDL.c08_round_trip_partial",
    "LDL.c08_stops_iff",
    "LDL.c08_terminates",
    "LDL.c08_in_bounds",
    "LDL.c08_force_rejoin_misread"
   ],
   "note": "Exact for 1.0.x and for 1.1 apart from ForceRejoinReq, whose Period and Max_Retries are read from the wrong bits (negation proved)."
  },
  {
   "property": "C09",
   "status": "proved",
   "theorems": [
    "LDL.c09_announced_size",
    "LDL.c09_command_bytes",
    "LDL.c09_all_fit"
   ],
   "note": "Each command writes the announced bytes; all answers of an uplink are written, in at most 21 of 30 bytes, without error."
  },
  {
   "property": "C10",
   "status": "proved",
   "theorems": [
    "LDL.c10_aes_is_fips197",
    "LDL.c10_inverse",
    "LDL.c10_length",
    "LDL.c10_permutation"
   ],
   "note": "Model of ldl_aes.c (table S-box, in-place key schedule) equals FIPS-197 written with field arithmetic, for every key and block."
  },
  {
   "property": "C100",
   "status": "partial",
   "theorems": [
    "LDL.c100_uplink_partial",
    "LDL.c100_downlink_partial",
    "LDL.c100_private",
    "LDL.c100_block_not",
    "LDL.c100_not"
   ],
   "note": "Proved: nothing but FOpts of 1.1 sessions changes, exact blocks in both directions, and no block is used twice. False of the code: the block is not the one of the errata (the octet for the counter is in the wrong place, and the last octet of downlinks is 0)."
  },
  {
   "property": "C101",
   "status": "partial",
   "theorems": [
    "LDL.c101_session",
    "LDL.c101_uplinks_partial",
    "LDL.c101_downlinks_partial"
   ],
   "note": "c101_session holds in full. Uplinks: missing are counters from 65536 on and frames of 244 bytes (where C17 shows the code to fail) and, in 1.1 sessions, acknowledging uplinks with ConfFCnt other than 0. Downlinks: missing are counters from 65536 on and messages of 244 bytes, see C16."
  },
  {
   "property": "C102",
   "status": "partial",
   "theorems": [
    "LDL.c102_sleep_partial",
    "LDL.c102_told",
    "LDL.c102_future",
    "LDL.c102_ever_after",
    "LDL.c102_rounded",
    "LDL.c102_started"
   ],
   "note": "Any number of further calls of LDL_MAC_process that report nothing; the next call and all later ones do the same. Not covered: further calls that report a ready channel (the time told is rounded up: negation) or with which the counting of off-time begins or ends (negation)."
  },
  {
   "property": "C103",
   "status": "partial",
   "theorems": [
    "LDL.c103_rate_partial",
    "LDL.c103_transmissions_partial",
    "LDL.c103_new_partial",
    "LDL.c103_ordered",
    "LDL.c103_window"
   ],
   "note": "Proved for every history as long as the application does not set data rate 0, no data message of the network is heard and the channels leave room for a rate above 0 (c103_new_partial); also for any history along which the reported data rate stays above 0 (c103_transmissions_partial). Without these conditions it is false (c103_ordered), and for reception it is false (c103_window)."
  },
  {
   "property": "C104",
   "status": "partial",
   "theorems": [
    "LDL.c104_delayed_partial",
    "LDL.c104_begins",
    "LDL.c104_off_time",
    "LDL.c104_even",
    "LDL.c104_defined",
    "LDL.c104_ticks",
    "LDL.c104_undefined",
    "LDL.c104_cut"
   ],
   "note": "Transmitted when the delay is over and not before, whatever is called in between; the delay begins when no off-time is left; delays evenly drawn. Partial: interval below 2^31 ticks; c104_ticks, c104_undefined and c104_cut show what happens otherwise and where the documentation is wrong."
  },
  {
   "property": "C105",
   "status": "partial",
   "theorems": [
    "LDL.WlSpi.c105_write_partial",
    "LDL.WlSpi.c105_read_partial",
    "LDL.WlSpi.c105_patience",
    "LDL.WlSpi.c105_late"
   ],
   "note": "Partial: if each byte arrives before the polling loop gives up; c105_late is the witness that the code does not have the property otherwise. The prescaler is in C87."
  },
  {
   "property": "C106",
   "status": "partial",
   "theorems": [
    "LDL.ClassB.c106_up",
    "LDL.ClassB.c106_down",
    "LDL.ClassB.c106_truncated",
    "LDL.ClassB.c106_class_a",
    "LDL.ClassB.c106_size_partial",
    "LDL.ClassB.c106_size"
   ],
   "note": "Encoding, decoding and class A commands in full; the announced size is wrong for PingSlotChannelAns (c106_size), right for the others."
  },
  {
   "property": "C107",
   "status": "partial",
   "theorems": [
    "LDL.c107_survives_partial",
    "LDL.c107_uplink",
    "LDL.c107_abp_lost"
   ],
   "note": "All calls documented for applications, power losses at any event. Partial: LDL_MAC_abp does not report the session (c107_abp_lost); after the first accepted uplink it is stored (c107_uplink). Channels set through the internal header are not reported either."
  },
  {
   "property": "C108",
   "status": "partial",
   "theorems": [
    "LDL.c108_acknowledged_partial",
    "LDL.c108_once",
    "LDL.c108_bit",
    "LDL.c108_flags",
    "LDL.c108_lost"
   ],
   "note": "every call changes the two flags as specified and not otherwise (c108_flags); a confirmed downlink is acknowledged by the next uplink whatever happens in between (c108_acknowledged_partial, for the packets of C16), once (c108_once); not after a power loss in between, where the code loses the flag (c108_lost)"
  },
  {
   "property": "C109",
   "status": "partial",
   "theorems": [
    "LDL.c109_new_keys_partial",
    "LDL.c109_joined_partial",
    "LDL.c109_network_keys_partial",
    "LDL.c109_abp_reused",
    "LDL.aes_oneToOne"
   ],
   "note": "for activation over the air: sessions between which a join request was sent (c109_new_keys_partial, 1.0.4 and 1.1) or JOIN_COMPLETE was reported (c109_joined_partial, all versions, 1.0.3 if the network does not repeat a JoinNonce); between sessions of different protocol versions without AppSKey (c109_network_keys_partial); the code does not have the property for ABP (c109_abp_reused: forget restarts the counters under the same keys)"
  },
  {
   "property": "C11",
   "status": "proved",
   "theorems": [
    "LDL.c11_ctr_is_spec",
    "LDL.c11_length",
    "LDL.c11_involution"
   ],
   "note": "For every block function, counter block and payload up to 255 bytes."
  },
  {
   "property": "C110",
   "status": "partial",
   "theorems": [
    "LDL.c110_no_keystream_twice_partial",
    "LDL.Spec.OtaaLife.cut"
   ],
   "note": "for two uplinks anywhere in the life of a device activated over the air (1.0.4 and 1.1), counters up to 65535 and sessions of the same protocol version; the code does not have the property for ABP (c109_abp_reused) and from counter 65536 on (c23_reused); every point of a life is the end of a life (OtaaLife.cut)"
  },
  {
   "property": "C111",
   "status": "proved",
   "theorems": [
    "LDL.c111_in_order"
   ],
   "note": "the order is an automaton over the events of a life (Spec/Order); every life of a device activated over the air"
  },
  {
   "property": "C112",
   "status": "partial",
   "theorems": [
    "LDL.c112_from_the_network_partial",
    "LDL.c112_contents_partial"
   ],
   "note": "Origin and contents of what is reported. Missing: packets of 244 bytes (the MIC is not computed as specified there, C12), the counter in the MIC is the 16 bit one the packet shows (C18), and for the contents packets whose FOpts reach behind their end (C06). Personalised devices are left to C15."
  },
  {
   "property": "C12",
   "status": "partial",
   "theorems": [
    "LDL.c12_cmac_any_chunking_partial",
    "LDL.c12_cmac_upto_255",
    "LDL.c12_cmac_frame_partial",
    "LDL.c12_wrong_at_256",
    "LDL.c12_wrong_at_256_witness"
   ],
   "note": "The byte-wide size field wraps: tags over exactly 256 bytes (16 byte block and 240 bytes of frame) are wrong, proved with an exact characterisation and an AES witness. All other totals and chunkings are proved."
  },
  {
   "property": "C13",
   "status": "proved",
   "theorems": [
    "LDL.c13_a_blocks",
    "LDL.c13_b_blocks",
    "LDL.c13_a_is_not_b"
   ],
   "note": "The functions that build the blocks are injective in all parameters (in range), and A and B blocks differ."
  },
  {
   "property": "C14",
   "status": "proved",
   "theorems": [
    "LDL.c14_join_keys",
    "LDL.c14_keys",
    "LDL.c14_restart"
   ],
   "note": "Over lives with crashes. c14_keys and c14_restart are for devices that are never personalised; c14_abp_lost shows that keys of a personalised device are replaced on restart."
  },
  {
   "property": "C15",
   "status": "partial",
   "theorems": [
    "LDL.c15_only_authentic_partial",
    "LDL.c15_join",
    "LDL.c15_join_rejected"
   ],
   "note": "Data operations: every reachable state and packet except length 244 (where the MIC is not computed as specified, c12_wrong_at_256). Joins: every packet at every point of every life of the device, no exception. A rejected packet still ends the receive window it arrived in, so nothing more is received for that transmission."
  },
  {
   "property": "C16",
   "status": "partial",
   "theorems": [
    "LDL.c16_delivered_partial",
    "LDL.c16_counter_high"
   ],
   "note": "Counters below 65536 and lengths other than 244; c16_counter_high shows that counter 65536 is refused by the code."
  },
  {
   "property": "C17",
   "status": "partial",
   "theorems": [
    "LDL.c17_accepted_by_server_partial",
    "LDL.c17_counter_high",
    "LDL.c17_length_244",
    "LDL.c17_conf_counter"
   ],
   "note": "Proved for uplink counters below 65536, frames not of 244 bytes, and (1.1) uplinks that do not acknowledge a downlink with a non-zero counter. Each exception is witnessed as a violation."
  },
  {
   "property": "C18",
   "status": "partial",
   "theorems": [
    "LDL.c18_replay_is_delivered",
    "LDL.c18_replay_witness",
    "LDL.c18_needs_new_send_partial"
   ],
   "note": "False of the code: c18_replay_is_delivered proves that a replay is always accepted, c18_replay_witness is a run. What holds: a delivery needs a data operation, so one replay per accepted send."
  },
  {
   "property": "C19",
   "status": "proved",
   "theorems": [
    "LDL.c19_increasing",
    "LDL.c19_no_replay"
   ],
   "note": "Lives with crashes between any two effects of any call; 1.0.4 and 1.1."
  },
  {
   "property": "C20",
   "status": "proved",
   "theorems": [
    "LDL.c20_increasing",
    "LDL.c20_stored_beyond",
    "LDL.c20_stored_first",
    "LDL.c20_random"
   ],
   "note": "Over Spec.Life: any calls, power loss after any event of any call, restart with what was stored. For 1.0.4 and 1.1; c20_random shows that 1.0.3 nonces (random) can repeat."
  },
  {
   "property": "C21",
   "status": "proved",
   "theorems": [
    "LDL.c21_refused",
    "LDL.c21_never_wraps",
    "LDL.c21_join_ends",
    "LDL.c21_last"
   ],
   "note": "Refused with DEVNONCE once all 65536 values are used; the stored value never wraps; a join ends while processing only with JOIN_COMPLETE, or JOIN_EXHAUSTED with all values used; no other request is made after the last."
  },
  {
   "property": "C22",
   "status": "proved",
   "theorems": [
    "LDL.c22_increasing",
    "LDL.c22_stored_first",
    "LDL.c22_accepted"
   ],
   "note": "Over Spec.Life until 2^32 uplinks (NoWrap). A session ends when a session that is not joined is stored (LDL_MAC_forget)."
  },
  {
   "property": "C23",
   "status": "partial",
   "theorems": [
    "LDL.c23_no_block_reused_partial",
    "LDL.c23_reused"
   ],
   "note": "Holds for counters below 65536; from 65536 on the code uses the blocks again (c23_reused), because the encryption counter is 16 bits wide in the code. Two ABP sessions with the same keys are outside: the session is the one since the last LDL_MAC_forget."
  },
  {
   "property": "C24",
   "status": "proved",
   "theorems": [
    "LDL.c24_accepted_iff",
    "LDL.c24_refused"
   ],
   "note": "Over every reachable state (any restored session within documented ranges): accepted exactly when joined, idle, port 1..223, no aggregate off-time, an open channel exists and payload + 8 fits the rate; otherwise the first applicable reason, and only the prepared transmission parameters change."
  },
  {
   "property": "C25",
   "status": "proved",
   "theorems": [
    "LDL.c25_one_at_a_time"
   ],
   "note": "For every state: the request is refused and the device state is unchanged."
  },
  {
   "property": "C26",
   "status": "proved",
   "theorems": [
    "LDL.c26_operations_end_once",
    "LDL.c26_conservation"
   ],
   "note": "Over every call sequence from init: the observer of calls, statuses and events never faults, and accepted operations = terminal events + 1 if one is in progress."
  },
  {
   "property": "C27",
   "status": "partial",
   "theorems": [
    "LDL.c27_carried_partial",
    "LDL.c27_acts_partial",
    "LDL.c27_counts",
    "LDL.c27_cancel_stuck",
    "LDL.c27_late_stuck",
    "LDL.c27_late_witness"
   ],
   "note": "False of the code in two ways, both proved: cancelling or forgetting in any state after the radio was started stops the device for good (c27_cancel_stuck), and so does a second-window timer that expires during the first window when nothing is received (c27_late_stuck, c27_late_witness). Proved for all executions without these: a device that is not idle has an armed timer, off-time of a join is counted down, and when the timers have expired the next process call acts."
  },
  {
   "property": "C28",
   "status": "proved",
   "theorems": [
    "LDL.c28_cancel"
   ],
   "note": "Application events of cancel are exactly [OP_CANCELLED] if an operation was in progress, none otherwise. That the device may then be stuck is the subject of C27."
  },
  {
   "property": "C29",
   "status": "partial",
   "theorems": [
    "LDL.c29_cancel_never_charges",
    "LDL.c29_witness"
   ],
   "note": "The property is false of the code: LDL_MAC_cancel overwrites the state before testing for TX. Proved: cancel never charges, with a reachable mid-transmission witness."
  },
  {
   "property": "C30",
   "status": "partial",
   "theorems": [
    "LDL.c30_legal_channel_partial",
    "LDL.rangeOk_fixed",
    "LDL.c30_inverted_range"
   ],
   "note": "Proved for every accepted send: channel defined, unmasked, band without off-time, frequency of the channel. The rate is within the range if the range is not empty and made of uplink rates, which holds in US915/AU915; it can fail for ranges set by addChannel or NewChannelReq (witness c30_inverted_range)."
  },
  {
   "property": "C31",
   "status": "proved",
   "theorems": [
    "LDL.c31_no_repetition",
    "LDL.c31_every_channel",
    "LDL.c31_selects_iff"
   ],
   "note": "Data channel selection on send requests."
  },
  {
   "property": "C32",
   "status": "partial",
   "theorems": [
    "LDL.c32_duty_cycle_partial",
    "LDL.c32_send",
    "LDL.c32_cancelled"
   ],
   "note": "c32_send holds for all executions: when a send is accepted and its frame transmitted, the off-times of all earlier transmissions in that band are over (as long as less than 2^32 units are owed). The inequality at every instant holds as long as no transmission is cut short by cancel or forget; c32_cancelled shows it false then."
  },
  {
   "property": "C33",
   "status": "partial",
   "theorems": [
    "LDL.c33_off_time_partial",
    "LDL.c33_after_idle"
   ],
   "note": "Proved when off-time was already being counted as the transmission ended. False otherwise: after idling the idle time is taken off the new off-time (c33_after_idle)."
  },
  {
   "property": "C34",
   "status": "partial",
   "theorems": [
    "LDL.c34_never_decreases",
    "LDL.c34_backoff_partial",
    "LDL.c34_after_idle",
    "LDL.c34_after_day"
   ],
   "note": "The gap after a join request is at least its air time times the factor for the time spent joining, counted from the last time the device's clock was up to date; during the first day that is the end of the request. The factor never decreases. False in general: the first-hour factor can be missed after idling (c34_after_idle), and after the first day the gap is too short by the time the clock stood still before the request (c34_after_day)."
  },
  {
   "property": "C35",
   "status": "proved",
   "theorems": [
    "LDL.c35_set",
    "LDL.c35_append",
    "LDL.c35_not_early",
    "LDL.c35_expires",
    "LDL.c35_next_event",
    "LDL.c35_next_event_exact",
    "LDL.c35_process_quiet"
   ],
   "note": "All clock values including wrap; the reported interval is exact but for one tick at a wrap."
  },
  {
   "property": "C36",
   "status": "proved",
   "theorems": [
    "LDL.c36_expected",
    "LDL.c36_recorded",
    "LDL.c36_kept",
    "LDL.c36_delivered",
    "LDL.c36_only",
    "LDL.c36_acts",
    "LDL.c36_zero"
   ],
   "note": "All reachable states and all calls."
  },
  {
   "property": "C37",
   "status": "partial",
   "theorems": [
    "LDL.c37_rx1_partial",
    "LDL.c37_rx2_partial",
    "LDL.c37_direct_partial",
    "LDL.c37_missed_partial",
    "LDL.c37_on_time",
    "LDL.WindowDemo.opened",
    "LDL.WindowDemo.opened_rx2",
    "LDL.WindowDemo.opened_direct",
    "LDL.WindowDemo.opened_missed",
    "LDL.WindowDemo.opened_wrap",
    "LDL.c37_late_startup",
    "LDL.c37_slow_processing"
   ],
   "note": "Proved for every run, whatever the lateness: both windows when the first is still ahead, the second alone when the end of the transmission is processed too late for the first (or the delay is too short), and the second at once when it is too late for both. The exact opening time is given for a start-up timer processed l ticks late, and for a clock that wraps in between (one tick). False in general: lateness of the start-up timer is compensated twice, so the window opens l ticks early; c37_late_startup shows a window that is over before the downlink is due. The window is also late by the time the call of process that notices the end of the transmission takes until it sets the timers (c37_on_time gives it exactly, c37_slow_processing is a missed downlink). WindowDemo.opened_wrap shows the tick lost by a clock that wraps, opened_missed a second window opened a second late. Missing: a first window that is opened later than the start-up for the second is due (both windows overlapping)."
  },
  {
   "property": "C38",
   "status": "proved",
   "theorems": [
    "LDL.c38_windows",
    "LDL.c38_covers",
    "LDL.c38_three"
   ],
   "note": "For windows processed on time; without 32-bit overflow and with at least one tick per symbol (Window.Fits). c38_symbol_zero: a low tick rate divides by zero."
  },
  {
   "property": "C39",
   "status": "partial",
   "theorems": [
    "LDL.c39_rx1_rate_partial",
    "LDL.c39_rx1_window_partial",
    "LDL.convertRate_spec",
    "LDL.rx1Freq_spec",
    "LDL.c39_reserved_offset_wrong"
   ],
   "note": "Proved for every region, uplink rate and offset the regional parameters define, down to the radio setting of the window. Not true for the reserved offsets, which the network can set and the device acknowledges: c39_reserved_offset_wrong is the counterexample."
  },
  {
   "property": "C40",
   "status": "partial",
   "theorems": [
    "LDL.c40_implicit_header_partial",
    "LDL.c40_error_bound_partial",
    "LDL.c40_too_short",
    "LDL.c40_monotone"
   ],
   "note": "The code computes the formula for an implicit header: c40_implicit_header_partial is exact for that, c40_error_bound_partial bounds the shortfall for the explicit header frames the MAC sends, c40_too_short is the counterexample to the property."
  },
  {
   "property": "C41",
   "status": "proved",
   "theorems": [
    "LDL.c41_set_rate",
    "LDL.c41_set_power",
    "LDL.c41_getters"
   ],
   "note": "All arguments, all states."
  },
  {
   "property": "C42",
   "status": "partial",
   "theorems": [
    "LDL.c42_mtu_partial",
    "LDL.c42_channels",
    "LDL.c42_tx_param_setup",
    "LDL.c42_requests",
    "LDL.c42_many_commands",
    "LDL.c42_empty"
   ],
   "note": "Exact: a non-empty payload is sent whole iff it is no longer than the size reported. Partial: requires that all channels in use allow the data rate, no TXParamSetupAns due, no link check or time request, commands fit FOpts; each of these is shown necessary by a reachable counterexample."
  },
  {
   "property": "C43",
   "status": "partial",
   "theorems": [
    "LDL.c43_fits_partial",
    "LDL.c43_channel_limit",
    "LDL.c43_mac_priority"
   ],
   "note": "Proved when the rate set does not exceed the range of an open channel and MAC commands do not displace the payload at US915 DR0; both exceptions are witnessed as violations."
  },
  {
   "property": "C44",
   "status": "partial",
   "theorems": [
    "LDL.c44_all_or_nothing_partial",
    "LDL.c44_truncated"
   ],
   "note": "Proved for every downlink whose commands do not end in a truncated LinkADRReq; in that case the mask changes without an answer (c44_truncated)."
  },
  {
   "property": "C45",
   "status": "partial",
   "theorems": [
    "LDL.c45_some_channel_partial",
    "LDL.c45_fixed_plan",
    "LDL.c45_all_disabled",
    "LDL.c45_truncated"
   ],
   "note": "False as stated in 16-channel regions (c45_all_disabled: an all-zero mask is acknowledged and applied) and for truncated blocks (c45_truncated). Proved: requests that enable some channel leave one enabled; fixed-plan regions."
  },
  {
   "property": "C46",
   "status": "proved",
   "theorems": [
    "LDL.c46_repetitions"
   ],
   "note": "Number of transmissions bounded and all of them identical in setting and bytes."
  },
  {
   "property": "C47",
   "status": "proved",
   "theorems": [
    "LDL.c47_complete_only_if_acked",
    "LDL.c47_mac_priority"
   ],
   "note": "DATA_COMPLETE during a confirmed send implies an accepted data downlink with ACK in that call; a request displaced by MAC commands is recorded as unconfirmed."
  },
  {
   "property": "C48",
   "status": "partial",
   "theorems": [
    "LDL.c48_start",
    "LDL.c48_answered",
    "LDL.c48_delay_positive",
    "LDL.c48_backoff_partial",
    "LDL.c48_starts_again",
    "LDL.c48_stuck",
    "LDL.c48_never_back_up",
    "LDL.c48_asks",
    "LDL.c48_quiet_network",
    "LDL.c48_outlives_session"
   ],
   "note": "Closed form of request, power, rate and channel mask after k unanswered uplinks, for every interleaving of other calls, and the single-step law that rate never rises and power never falls. Partial: after the last step the count restarts and the request is withdrawn (c48_starts_again, c48_quiet_network), after 255 unanswered uplinks the back-off stops for good (c48_stuck; for this one no concrete run of 255 uplinks is evaluated), and the count is not reset by forget (c48_outlives_session)."
  },
  {
   "property": "C49",
   "status": "proved",
   "theorems": [
    "LDL.c49_dev_status",
    "LDL.c49_six_bits",
    "LDL.c49_encoded"
   ],
   "note": "Margin is the SNR clamped to -32..31, battery passed through, and both survive the encoding."
  },
  {
   "property": "C50",
   "status": "partial",
   "theorems": [
    "LDL.c50_restore_partial",
    "LDL.c50_defaults_wrong"
   ],
   "note": "Restore guard proved for all arguments. Defaults are those of the region only when it is the first one built in; the negation is proved for US915 (RX2) and EU433 (channels) with EU868 first."
  },
  {
   "property": "C51",
   "status": "partial",
   "theorems": [
    "LDL.c51_forget_partial",
    "LDL.c51_not_joined"
   ],
   "note": "Proved for every state of a joined device: not joined, no operation, counters/address/nonces/answers cleared, regional channels and receive parameters, user settings kept, session reported last. Missing: a device that is not joined is only cancelled, so a changed channel plan stays (proved with a witness). TX_PARAM_SETUP becomes 0xff and the ADR acknowledgement counter is not reset."
  },
  {
   "property": "C52",
   "status": "proved",
   "theorems": [
    "LDL.c52_bounded",
    "LDL.c52_data"
   ],
   "note": "The EIRP of every transmission, as a function of region, power index, dwell limit and network limit, never above the regional maximum nor the network limit."
  },
  {
   "property": "C53",
   "status": "proved",
   "theorems": [
    "LDL.c53_channel_list",
    "LDL.c53_legal"
   ],
   "note": "Exact effect of every channel list of an authentic join accept on channels and mask, over the life of a device."
  },
  {
   "property": "C54",
   "status": "partial",
   "theorems": [
    "LDL.c54_exactly",
    "LDL.c54_legal_partial",
    "LDL.c54_inverted",
    "LDL.c54_default_redefined"
   ],
   "note": "A request changes a channel exactly when both bits are set (c54_exactly). The validation itself admits inverted rate ranges and default channels (witnesses)."
  },
  {
   "property": "C55",
   "status": "partial",
   "theorems": [
    "LDL.c55_device_time_partial",
    "LDL.c55_anchor",
    "LDL.c55_wrap"
   ],
   "note": "Exact while the 32-bit clock has not wrapped since the end of transmission; one tick short over the wrap (c55_wrap). The anchor is late by the time the call of process that notices the end of the transmission takes until it records it (c55_anchor), and the device time early by as much."
  },
  {
   "property": "C56",
   "status": "partial",
   "theorems": [
    "LDL.c56_join_channel_partial",
    "LDL.c56_every_channel",
    "LDL.c56_masked"
   ],
   "note": "For any sequence of calls after a join is started, every request is sent on a channel of the plan (unmasked where the plan can be edited) at a rate of its range. Missing: if all channels of an editable plan are masked when the join starts the request is sent with stale settings (c56_masked); channel ranges that make no sense, as in C30."
  },
  {
   "property": "C57",
   "status": "partial",
   "theorems": [
    "LDL.c57_band_partial",
    "LDL.c57_legal",
    "LDL.c57_gap_wrong"
   ],
   "note": "False in three gaps between the EU868 sub-bands (c57_gap_wrong); proved for all other frequencies and all other regions."
  },
  {
   "property": "C58",
   "status": "proved",
   "theorems": [
    "LDL.c58_step",
    "LDL.c58_repeated",
    "LDL.c58_once",
    "LDL.c58_downlink",
    "LDL.c58_downlink_adr_partial",
    "LDL.c58_kinds",
    "LDL.c58_carried"
   ],
   "note": "What is due after any call. Single-shot answers are retired by the send request that carries them (if that operation is cancelled before transmission they are not sent again). RekeyInd is repeated until RekeyConf."
  },
  {
   "property": "C59",
   "status": "proved",
   "theorems": [
    "LDL.c59_ready_iff",
    "LDL.c59_ready"
   ],
   "note": ""
  },
  {
   "property": "C60",
   "status": "partial",
   "theorems": [
    "LDL.c60_only_in_operations",
    "LDL.c60_charged_once_partial",
    "LDL.c32_duty_cycle_partial",
    "LDL.c29_witness"
   ],
   "note": "Transmissions only within operations; each is charged at least once (c32_duty_cycle_partial) and at most once (c60_charged_once_partial), except that one cut short by cancel or forget is never charged (c29_witness, c32_cancelled)."
  },
  {
   "property": "C61",
   "status": "partial",
   "theorems": [
    "LDL.c61_obeyed",
    "LDL.c61_reports",
    "LDL.c61_standard_partial",
    "LDL.c61_answered_partial",
    "LDL.c61_delay_zero",
    "LDL.c61_rx_param_unchecked",
    "LDL.c61_channel_not_removed",
    "LDL.c61_dl_channel",
    "LDL.c61_one_answer"
   ],
   "note": "c61_obeyed and c61_reports give the exact effect of any list of commands (LinkADRReq: C44, C86). Against the standard (Spec/Standard) it holds for requests that are plain; the departures are proved: delay 0, RXParamSetupReq unchecked, NewChannelReq with frequency 0, DlChannelReq, one answer for several requests of a kind; also c54_inverted, c54_default_redefined."
  },
  {
   "property": "C62",
   "status": "proved",
   "theorems": [
    "LDL.c62_accepted"
   ],
   "note": ""
  },
  {
   "property": "C63",
   "status": "partial",
   "theorems": [
    "LDL.c63_join_session_partial",
    "LDL.c63_delay_reserved"
   ],
   "note": "Missing: with a reserved bit set in the delay octet the device does not ignore it; proved with a witness."
  },
  {
   "property": "C64",
   "status": "proved",
   "theorems": [
    "LDL.c64_order",
    "LDL.c64_sx127x"
   ],
   "note": "all executions; driver never aborts on any partial history"
  },
  {
   "property": "C65",
   "status": "proved",
   "theorems": [
    "LDL.c65_on_air"
   ],
   "note": "carrier for frequencies below 1024 MHz (24 bit register)"
  },
  {
   "property": "C66",
   "status": "proved",
   "theorems": [
    "LDL.c66_windows"
   ],
   "note": "carrier for frequencies below 1024 MHz; symbol timeout clamped to 8..1023"
  },
  {
   "property": "C67",
   "status": "partial",
   "theorems": [
    "LDL.c67_power_partial",
    "LDL.c67_rounds_up",
    "LDL.c67_gap"
   ],
   "note": "below 0 dBm up to 0.99 dB too strong, 18 and 19 dBm up to 3 dB too weak (witnesses); within PowerOk otherwise"
  },
  {
   "property": "C68",
   "status": "proved",
   "theorems": [
    "LDL.c68_asleep",
    "LDL.c68_between_windows"
   ],
   "note": ""
  },
  {
   "property": "C69",
   "status": "proved",
   "theorems": [
    "LDL.c69_packet"
   ],
   "note": ""
  },
  {
   "property": "C70",
   "status": "partial",
   "theorems": [
    "LDL.c70_quality_partial",
    "LDL.c70_negative_snr"
   ],
   "note": "SNR correct when not negative; negative SNR is misreported (witness)"
  },
  {
   "property": "C71",
   "status": "proved",
   "theorems": [
    "LDL.c71_tx_status",
    "LDL.c71_rx_status",
    "LDL.c71_entropy"
   ],
   "note": ""
  },
  {
   "property": "C72",
   "status": "proved",
   "theorems": [
    "LDL.c72_no_abort"
   ],
   "note": ""
  },
  {
   "property": "C73",
   "status": "proved",
   "theorems": [
    "LDL.c73_on_air",
    "LDL.c73_tcxo_off"
   ],
   "note": "Power within the limits of C80. c73_tcxo_off shows that the condition that no access fails is needed."
  },
  {
   "property": "C74",
   "status": "proved",
   "theorems": [
    "LDL.c74_windows"
   ],
   "note": ""
  },
  {
   "property": "C75",
   "status": "proved",
   "theorems": [
    "LDL.c75_failing"
   ],
   "note": "Power within the limits of C80; the set-up of regulator, switch and TCXO is not part of the claim (see c73_tcxo_off)."
  },
  {
   "property": "C76",
   "status": "proved",
   "theorems": [
    "LDL.c76_asleep",
    "LDL.c76_between_windows",
    "LDL.c76_lines_left"
   ],
   "note": "c76_lines_left: between the windows the accessory lines stay switched to transmission or reception."
  },
  {
   "property": "C77",
   "status": "partial",
   "theorems": [
    "LDL.c77_packet_partial",
    "LDL.c77_failing"
   ],
   "note": "The packet is returned unchanged if no access fails. The claim about failing accesses is false: if only the second access fails the full length is returned although nothing was read (c77_failing)."
  },
  {
   "property": "C78",
   "status": "partial",
   "theorems": [
    "LDL.c78_quality_partial",
    "LDL.c78_rssi_wrong"
   ],
   "note": "SNR holds. RSSI is false of the code: its sign is taken from the wrong place; it is right for three of 256 values only."
  },
  {
   "property": "C79",
   "status": "proved",
   "theorems": [
    "LDL.c79_tx_status",
    "LDL.c79_rx_status",
    "LDL.c79_entropy",
    "LDL.c79_stale"
   ],
   "note": "c79_stale shows that the condition that no access fails is needed."
  },
  {
   "property": "C80",
   "status": "partial",
   "theorems": [
    "LDL.c80_power_partial",
    "LDL.c80_weak"
   ],
   "note": "False of the code: the power setting is not adapted to the amplifier setting, so powers up to 20 dBm are emitted up to 8 dB too weak; below 0 dBm the power is rounded up by less than 1 dB. Proved: upper limit (with that rounding) and the lower limits 8.99 dB and 3.99 dB."
  },
  {
   "property": "C81",
   "status": "partial",
   "theorems": [
    "LDL.c81_storage_partial",
    "LDL.c81_nonces_partial",
    "LDL.c81_nonces_start_over"
   ],
   "note": "Holds until the last DevNonce has been used up; then the 16 bit storage wraps and DevNonces start over (negation proved)."
  },
  {
   "property": "C82",
   "status": "partial",
   "theorems": [
    "LDL.c82_serial_partial",
    "LDL.c82_serial_cancel",
    "LDL.c82_cancel_drops_session"
   ],
   "note": "Holds for all methods but cancel, which does what forget does (negation proved, and the property for cancel read as forget)."
  },
  {
   "property": "C83",
   "status": "partial",
   "theorems": [
    "LDL.c83_answered_partial",
    "LDL.c83_alone_partial",
    "LDL.c83_worker",
    "LDL.c83_no_deadlock",
    "LDL.c83_edge"
   ],
   "note": "Bound proved for every schedule and however the clock goes, also during a step, as long as no timer is at the edge of the clock when the worker takes a step; at the edge it is false (c83_edge). Absence of deadlock without this condition."
  },
  {
   "property": "C84",
   "status": "partial",
   "theorems": [
    "LDL.c84_outcome_partial",
    "LDL.c84_stale_flag",
    "LDL.c84_lost_completion",
    "LDL.c84_not_waiting",
    "LDL.c84_no_channel"
   ],
   "note": "Proved when one thread uses the blocking methods and does not use otaa with a timeout; negations otherwise."
  },
  {
   "property": "C85",
   "status": "partial",
   "theorems": [
    "LDL.c85_rest_partial",
    "LDL.c85_edge"
   ],
   "note": "Proved unless a timer is overdue by exactly 2^31 - 1 ticks (or the clock wrap one tick); negation at that instant."
  },
  {
   "property": "C86",
   "status": "partial",
   "theorems": [
    "LDL.c86_link_adr_partial",
    "LDL.c86_fixed_masks",
    "LDL.c86_undefined_channel",
    "LDL.c86_rate_without_channel",
    "LDL.c86_repetitions_cut",
    "LDL.c86_one_answer",
    "LDL.c86_second_block"
   ],
   "note": "Holds for one block per downlink whose masks, rate and repetitions are PlainBlock; the departures are proved as witnesses."
  },
  {
   "property": "C87",
   "status": "partial",
   "theorems": [
    "LDL.Spi.c87_accesses_partial",
    "LDL.Spi.c87_selections",
    "LDL.Spi.c87_released",
    "LDL.Spi.c87_impatient",
    "LDL.Spi.c87_wl55_clock",
    "LDL.Spi.c87_wl55_overrun"
   ],
   "note": "All interleavings, any number of radios. The claim about the time is false: the second is counted from the call, which includes waiting for the bus (c87_impatient). The WL55 reads beyond a table for configurations out of range (c87_wl55_overrun)."
  },
  {
   "property": "C88",
   "status": "partial",
   "theorems": [
    "LDL.c88_off_time_partial",
    "LDL.c88_own_band"
   ],
   "note": "Aggregate off-time in all regions; off-time of the frame's own band in the regions with one band (all but EU868). In EU868 the property is false (c88_own_band)."
  },
  {
   "property": "C89",
   "status": "partial",
   "theorems": [
    "LDL.c89_doubling_partial",
    "LDL.c89_repeated",
    "LDL.c89_overflow"
   ],
   "note": "For waits that fit a timer; c89_overflow shows a wait cut short because it does not."
  },
  {
   "property": "C90",
   "status": "proved",
   "theorems": [
    "LDL.c90_once",
    "LDL.c90_before"
   ],
   "note": ""
  },
  {
   "property": "C91",
   "status": "proved",
   "theorems": [
    "LDL.c91_process",
    "LDL.c91_calls",
    "LDL.c91_history",
    "LDL.c91_reachable",
    "LDL.c91_dropped"
   ],
   "note": "Cancel and forget disarm the latch in one critical section, so an interrupt during them is one before or after them. That the rest of a call does not depend on the latch is seen from the code, not proved: the model has calls, not instructions."
  },
  {
   "property": "C92",
   "status": "proved",
   "theorems": [
    "LDL.c92_register",
    "LDL.c92_oscillator"
   ],
   "note": "At every moment after the first reset; the meaning of the bit assumes the reset value of the bit is zero (data sheet)."
  },
  {
   "property": "C93",
   "status": "partial",
   "theorems": [
    "LDL.c93_refused",
    "LDL.c93_process_partial",
    "LDL.c93_channel_ready",
    "LDL.c93_timer",
    "LDL.ReDemo.c93_cancel_fails",
    "LDL.ReDemo.c93_entropy_lost"
   ],
   "note": "Proved for requests in all callbacks of the processing call, CHANNEL_READY in an idle device included; not for CHANNEL_READY while the radio restarts after an error. False for cancel, and for requests in the callback of LDL_MAC_otaa (witnesses)."
  },
  {
   "property": "C94",
   "status": "partial",
   "theorems": [
    "LDL.c94_us_partial",
    "LDL.c94_join",
    "LDL.c94_us_commands",
    "LDL.c94_au_ignored",
    "LDL.c94_au_default"
   ],
   "note": "Proved for US915 data frames other than MAC commands sent in place of the payload at data rate 0, and for join requests in US915 and AU915. False for those MAC commands (c94_us_commands) and for AU915 data frames (c94_au_ignored, for every state with data rate 0 or 1; c94_au_default)."
  },
  {
   "property": "C95",
   "status": "proved",
   "theorems": [
    "LDL.c95_wl55",
    "LDL.c95_wl55_ready",
    "LDL.c95_sx126x",
    "LDL.c95_sx127x",
    "LDL.c95_sx127x_ready",
    "LDL.c95_stale"
   ],
   "note": "WL55 (level triggered, any delay of the interrupt up to the next radio call), SX1261/SX1262 and SX1272/SX1276 (edge triggered), provided no access to the chip fails; c95_stale shows what happens on the WL55 if one does."
  },
  {
   "property": "C96",
   "status": "partial",
   "theorems": [
    "LDL.c96_sx126x",
    "LDL.c96_wl55",
    "LDL.c96_sx1272_partial",
    "LDL.c96_sx1276_never",
    "LDL.c96_sx1276_not"
   ],
   "note": "Proved for SX1261, SX1262, WL55 and SX1272. False for the SX1276 (c96_sx1276_never for every execution, c96_sx1276_not a reachable request for reset that is not honoured): the wrapper drives the line high for both SX127x, the SX1276 is reset by a low level."
  },
  {
   "property": "C97",
   "status": "partial",
   "theorems": [
    "LDL.c97_silence_partial",
    "LDL.c97_stray",
    "LDL.c97_forged",
    "LDL.SecondDemo.c97_not"
   ],
   "note": "Proved for every run in which the radio delivers no packet. False of the code otherwise: any packet in the first window that is no downlink closes the second (c97_stray, for every device and every packet that is not of a downlink type; c97_not is a concrete run), and so does a data downlink that is forged or for another device (c97_forged)."
  },
  {
   "property": "C98",
   "status": "partial",
   "theorems": [
    "LDL.c98_same",
    "LDL.c98_histories",
    "LDL.c98_reset_last",
    "LDL.c98_log_partial",
    "LDL.c98_log_not"
   ],
   "note": "Driver and chip: proved. The log holds 20 accesses; every transmission and receive window makes more, so the log of these is never complete: negation. Timing is not modelled; getStatus, which logs without printing, is outside of the log theorem."
  },
  {
   "property": "C99",
   "status": "partial",
   "theorems": [
    "LDL.c99_line_partial",
    "LDL.c99_channel_mask",
    "LDL.c99_inside",
    "LDL.c99_outside",
    "LDL.c99_overrun",
    "LDL.c99_hex_not"
   ],
   "note": "Right and in bounds up to 1023 characters; exact condition for a write outside of the buffer; bytes of two hexadecimal digits are printed with three: negations."
  }
 ]
}
