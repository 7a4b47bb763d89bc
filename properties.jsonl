{"id": "C01", "title": "Stream cursor stays in bounds", "statement": "Whatever sequence of reads, writes and seeks is performed on a byte stream, the cursor stays between 0 and the stream size, no byte outside the buffer is read or written, and once an operation has failed the error flag stays set until the stream is re-initialised.", "quantifier": "all buffers of 0..255 bytes, all finite sequences of stream operations with all arguments", "why_tests_cant": "The set of operation sequences is infinite; a test runs a handful.", "anchors": ["src/ldl_stream.c: LDL_Stream_read, LDL_Stream_write, LDL_Stream_seekCur, LDL_Stream_seekSet, LDL_Stream_rewind"]}
{"id": "C02", "title": "Integer and EUI fields round-trip", "statement": "Reading a u8/u16/u24/u32/EUI field at the position where it was written returns the value written (modulo the field width), in little-endian order on the wire, and touches no other byte of the buffer.", "quantifier": "all field values, all buffers and all cursor positions with enough room", "why_tests_cant": "2^32 values times every position.", "anchors": ["src/ldl_stream.c: LDL_Stream_putU16, LDL_Stream_putU24, LDL_Stream_putU32, LDL_Stream_putEUI, LDL_Stream_getU32, LDL_Stream_getEUI"]}
{"id": "C03", "title": "Data frame encoding is the LoRaWAN layout", "statement": "Encoding a data frame either fails by returning 0 (exactly when the frame does not fit) or returns the exact length and produces MHDR | DevAddr | FCtrl | FCnt | FOpts | [FPort | FRMPayload] | MIC in the specified byte order, never writing past the buffer.", "quantifier": "all frame contents (any opts and payload), all buffer capacities", "why_tests_cant": "All payload/option lengths and contents.", "anchors": ["src/ldl_frame.c: LDL_Frame_putData"]}
{"id": "C04", "title": "An independent parser recovers every encoded data frame", "statement": "A LoRaWAN parser written from the specification recovers device address, flags, counter, options, port and payload from every data frame the encoder produces.", "quantifier": "all frame contents with at most 15 option bytes that fit in 255 bytes", "why_tests_cant": "Infinite contents; needs a proof of unambiguity of the layout.", "anchors": ["src/ldl_frame.c: LDL_Frame_putData"]}
{"id": "C05", "title": "Join request encoding", "statement": "A join request is 23 bytes: MHDR 0x00, reversed JoinEUI, reversed DevEUI, little-endian DevNonce, MIC; an independent parser recovers both EUIs and the nonce.", "quantifier": "all EUIs, nonces and MICs, all buffer capacities", "why_tests_cant": "2^144 inputs.", "anchors": ["src/ldl_frame.c: LDL_Frame_putJoinRequest"]}
{"id": "C06", "title": "Downlink decoder is memory safe and exact on data frames", "statement": "A received data frame is accepted exactly when its declared option length leaves room for the MIC (and, if there is a port, options are not combined with port 0); the option and payload regions reported lie inside the frame, before the MIC, and do not overlap.", "quantifier": "all received byte strings of 0..255 bytes", "why_tests_cant": "All byte strings; malformed frames come from the air.", "anchors": ["src/ldl_frame.c: LDL_Frame_decode"]}
{"id": "C07", "title": "Join accept decoder accepts exactly 17 or 33 byte frames", "statement": "A byte string whose first byte is 0x20 is decoded as a join accept exactly when it is 17 or 33 bytes long, the fields are those of the specification, RxDelay 0 is reported as 1, and a CFList is reported exactly for 33 bytes.", "quantifier": "all byte strings of 0..255 bytes", "why_tests_cant": "All lengths and contents.", "anchors": ["src/ldl_frame.c: LDL_Frame_decode, LDL_Frame_sizeofJoinAccept"]}
{"id": "C08", "title": "Downlink MAC command parser is exact", "statement": "A concatenation of well-formed downlink MAC commands is parsed into exactly that list of commands and field values; parsing always terminates, stops at the first unknown tag or truncated command, and never reads outside its input.", "quantifier": "all lists of commands, all byte strings", "why_tests_cant": "Unbounded lists; adversarial byte strings.", "anchors": ["src/ldl_mac_commands.c: LDL_MAC_getDownCommand, LDL_MAC_peekNextCommand"]}
{"id": "C09", "title": "Uplink MAC answers have the announced sizes and fit", "statement": "Each uplink MAC command writes exactly the number of bytes announced by its size function, starting with its tag, and every combination of pending answers fits in the scratch buffer so that none is silently dropped.", "quantifier": "all combinations of pending commands and answer values", "why_tests_cant": "2^16 pending sets times all values; overflow would be silent.", "anchors": ["src/ldl_mac_commands.c: LDL_MAC_sizeofCommandUp, LDL_MAC_putLinkADRAns, LDL_MAC_putDevStatusAns", "src/ldl_mac.c: externalDataCommand"]}
{"id": "C10", "title": "AES-128 is FIPS-197", "statement": "The block cipher computes the FIPS-197 AES-128 encryption of every block under every key.", "quantifier": "all 128-bit keys and blocks", "why_tests_cant": "2^256 inputs; test vectors sample a handful.", "anchors": ["src/ldl_aes.c: LDL_AES_init, LDL_AES_encrypt"]}
{"id": "C11", "title": "Payload cipher is an involution and matches the specification", "statement": "Encrypting a payload twice with the same parameters restores it, the length never changes, and each 16-byte block is xored with the encryption of the counter block A_i whose last byte is the 1-based block number.", "quantifier": "all keys, counter blocks, payloads of 0..255 bytes", "why_tests_cant": "All payloads and lengths.", "anchors": ["src/ldl_ctr.c: LDL_CTR_encrypt", "src/ldl_sm.c: LDL_SM_ctr"]}
{"id": "C12", "title": "CMAC equals RFC 4493 for any chunking", "statement": "The message authentication code over any message fed in any sequence of chunks equals the RFC 4493 AES-CMAC of the concatenation.", "quantifier": "all keys, all messages up to the 255-byte frame plus 16-byte header, all ways of splitting them", "why_tests_cant": "All lengths, contents and splits.", "anchors": ["src/ldl_cmac.c: LDL_CMAC_init, LDL_CMAC_update, LDL_CMAC_finish", "src/ldl_sm.c: LDL_SM_mic"]}
{"id": "C13", "title": "Cipher and MIC blocks are unambiguous", "statement": "Two A blocks (keystream) are equal only if device address, direction, counter and block index agree; two B blocks (MIC) only if their address, direction, counter, length and confirm/rate/channel fields agree; an A block is never equal to a B block.", "quantifier": "all field values", "why_tests_cant": "Collisions cannot be excluded by sampling.", "anchors": ["src/ldl_ops.c: initA, initB"]}
{"id": "C14", "title": "Session keys follow the LoRaWAN derivation and are reproducible", "statement": "After a join the session keys are the specified AES derivations from the root keys, JoinNonce, NetID or JoinEUI, and DevNonce; a device re-initialised with the stored session re-derives the same keys.", "quantifier": "all root keys, nonces, identifiers, both protocol versions", "why_tests_cant": "All key material; silent mismatch means lost session.", "anchors": ["src/ldl_ops.c: LDL_OPS_deriveKeys, LDL_OPS_deriveJoinKeys", "src/ldl_mac.c: LDL_MAC_init, processRX"]}
{"id": "C15", "title": "Only authentic downlinks are accepted", "statement": "A received byte string is accepted only if it decodes, the frame type matches the operation in progress, the address is the device's own, and its MIC verifies under the expected key; everything else is handled as if nothing had been received.", "quantifier": "all received byte strings, all device states", "why_tests_cant": "The attacker chooses the bytes.", "anchors": ["src/ldl_ops.c: LDL_OPS_receiveFrame", "src/ldl_mac.c: processRX"]}
{"id": "C16", "title": "Downlinks from a conforming server are delivered intact", "statement": "A data downlink built by a network server from the specification with the session keys, and with a fresh counter, is accepted and the application receives exactly the plaintext, port and flags sent.", "quantifier": "all payloads, ports, counters and options that form a legal frame", "why_tests_cant": "All contents; involves cipher, MIC, codec and counter logic together.", "anchors": ["src/ldl_ops.c: LDL_OPS_receiveFrame, deriveDownCounter"]}
{"id": "C17", "title": "Uplinks are accepted by a conforming server", "statement": "For every accepted send request the bytes handed to the radio pass the MIC check of a server written from the specification, and decrypt to the application's payload on the requested port.", "quantifier": "all session states, payloads, ports, counters", "why_tests_cant": "All contents and counters, including counters beyond 16 bits and all lengths.", "anchors": ["src/ldl_ops.c: LDL_OPS_prepareData, LDL_OPS_micDataFrame", "src/ldl_mac.c: externalDataCommand"]}
{"id": "C18", "title": "Replayed data downlinks are rejected", "statement": "A data downlink that has been accepted once is never accepted again in the same session.", "quantifier": "all histories of accepted downlinks", "why_tests_cant": "History property.", "anchors": ["src/ldl_ops.c: LDL_OPS_syncDownCounter, LDL_OPS_receiveFrame, deriveDownCounter"]}
{"id": "C19", "title": "Join accepts cannot be replayed", "statement": "The JoinNonce values of accepted join accepts are strictly increasing over the life of the device (1.0.4 and 1.1), including over restarts with the last reported value, so no join accept is accepted twice.", "quantifier": "all executions, all received frames, all restarts", "why_tests_cant": "History property over adversarial inputs.", "anchors": ["src/ldl_ops.c: LDL_OPS_receiveFrame", "src/ldl_mac.c: processRX, LDL_MAC_init"]}
{"id": "C20", "title": "DevNonce is never reused, even over a crash", "statement": "Every join request built carries a DevNonce larger than all earlier ones (LoRaWAN 1.0.4 and 1.1; 1.0.3 draws it at random), the next value is reported to the application before the request is transmitted, and a device restarted at any point with the last reported value never transmits a DevNonce already used.", "quantifier": "all executions, all crash points", "why_tests_cant": "Every interleaving and crash point.", "anchors": ["src/ldl_mac.c: LDL_MAC_otaa, downlinkMissingHandler, fillJoinBuffer"]}
{"id": "C21", "title": "DevNonce exhaustion is reported", "statement": "When the 16-bit DevNonce space is used up, a new join is refused with the DEVNONCE status and a join in progress ends with JOIN_EXHAUSTED; the nonce never wraps to zero.", "quantifier": "all executions", "why_tests_cant": "Needs 65536 joins.", "anchors": ["src/ldl_mac.c: LDL_MAC_otaa, downlinkMissingHandler"]}
{"id": "C22", "title": "Uplink frame counter is never reused, even over a crash", "statement": "Within a session, successive accepted send requests use strictly increasing uplink counters, the session carrying the next value is reported before the frame is transmitted, and a device restarted from the last reported session never transmits a new frame with a used counter; only the same frame is transmitted again with the same counter.", "quantifier": "all executions and crash points up to 2^32 uplinks", "why_tests_cant": "Every history and crash point.", "anchors": ["src/ldl_mac.c: externalDataCommand, pushSessionUpdate"]}
{"id": "C23", "title": "Keystream is never reused in a session", "statement": "No two distinct uplinks of one session are encrypted with the same key and counter block.", "quantifier": "all executions", "why_tests_cant": "Needs more than 65536 uplinks.", "anchors": ["src/ldl_ops.c: LDL_OPS_prepareData, initA"]}
{"id": "C24", "title": "Send requests are gated exactly as documented", "statement": "A send request is accepted exactly when the device is joined, no operation is in progress, the port is 1..223, the aggregate off-time is zero, a channel is available and the payload fits; otherwise the documented status is returned, no event is emitted and session, operation and timers are unchanged.", "quantifier": "all device states and arguments", "why_tests_cant": "All combinations of state and arguments.", "anchors": ["src/ldl_mac.c: externalDataCommand, LDL_MAC_unconfirmedData, LDL_MAC_confirmedData"]}
{"id": "C25", "title": "One operation at a time", "statement": "While an operation is in progress, every further join, send, entropy or ABP request is refused (BUSY or JOINED/NOTJOINED) and changes nothing.", "quantifier": "all device states and requests", "why_tests_cant": "All states.", "anchors": ["src/ldl_mac.c: LDL_MAC_entropy, LDL_MAC_otaa, LDL_MAC_abp, externalDataCommand"]}
{"id": "C26", "title": "Every operation ends at most once", "statement": "In every execution the number of accepted operations equals the number of terminal events delivered plus one if an operation is in progress: no operation is reported finished twice, and no terminal event appears without an operation. The terminal event matches the kind of operation.", "quantifier": "all executions, all radio behaviours, all schedules", "why_tests_cant": "Infinite executions.", "anchors": ["src/ldl_mac.c: LDL_MAC_process, processRX, handleRadioError, downlinkMissingHandler, LDL_MAC_cancel"]}
{"id": "C27", "title": "The MAC never gets stuck", "statement": "In every reachable state with work outstanding there is an armed timer, a pending interrupt, or off-time that is still counting down, so the MAC will eventually act again.", "quantifier": "all executions including cancel and forget at any point", "why_tests_cant": "Every cancel point and event ordering.", "anchors": ["src/ldl_mac.c: LDL_MAC_cancel, LDL_MAC_forget, processRX, LDL_MAC_process"]}
{"id": "C28", "title": "Cancel ends the operation with exactly one OP_CANCELLED", "statement": "Cancelling emits OP_CANCELLED exactly once if an operation was in progress and nothing otherwise, and afterwards no operation is in progress; session counters and nonces are unaffected.", "quantifier": "all device states", "why_tests_cant": "All states.", "anchors": ["src/ldl_mac.c: LDL_MAC_cancel"]}
{"id": "C29", "title": "Cancelled transmissions are charged to the duty cycle", "statement": "Air time of a transmission that is cancelled while on air is added to the off-time of its band.", "quantifier": "all states with a transmission in progress", "why_tests_cant": "All states.", "anchors": ["src/ldl_mac.c: LDL_MAC_cancel, registerTime"]}
{"id": "C30", "title": "Only legal channels are used for data", "statement": "A data frame is first sent on a channel that is defined, not masked, and whose band has no remaining off-time, at a rate within the channel's range.", "quantifier": "all channel configurations, masks, band states, random values", "why_tests_cant": "All configurations.", "anchors": ["src/ldl_mac.c: selectChannel, isAvailable, getChannel"]}
{"id": "C31", "title": "Channel hopping avoids repetition and can reach every channel", "statement": "If at least two channels are available the previous channel is not selected again; each other available channel is selected for some random value; selection succeeds exactly when some channel is available.", "quantifier": "all configurations and random values", "why_tests_cant": "All configurations.", "anchors": ["src/ldl_mac.c: selectChannel"]}
{"id": "C32", "title": "Long-run duty cycle is respected", "statement": "In every band, the off-time charged for all transmissions so far never exceeds the time elapsed since start plus the off-time still outstanding.", "quantifier": "all executions and tick sequences (until a counter saturates)", "why_tests_cant": "Unbounded histories with wrapping clocks.", "anchors": ["src/ldl_mac.c: processBands, updateDownCounter, registerTime"]}
{"id": "C33", "title": "Off-time is enforced after each transmission", "statement": "After a transmission the band it used stays closed for at least the off-time charged.", "quantifier": "all executions and idle periods", "why_tests_cant": "Depends on how long the device idled before.", "anchors": ["src/ldl_mac.c: processBands, setNextBandEvent"]}
{"id": "C34", "title": "Join back-off schedule", "statement": "While joining, the off-time factor is 100 in the first hour, 1000 up to the eleventh hour and 10000 afterwards, and never decreases during one join.", "quantifier": "all elapsed times", "why_tests_cant": "Takes days of simulated time.", "anchors": ["src/ldl_mac.c: getOTAAOffTime, LDL_MAC_otaa, registerTime"]}
{"id": "C35", "title": "Timers never fire early and are not missed", "statement": "A timer set for t ticks does not fire before t ticks have passed, fires at the first check after that (for checks within 2^31-2 ticks of expiry), and the interval reported until the next event never exceeds the time to the earliest armed timer, also across wrap of the 32-bit clock.", "quantifier": "all 32-bit clock values and timeouts", "why_tests_cant": "2^64 clock/timeout pairs including wrap.", "anchors": ["src/ldl_mac.c: timerDelta, LDL_MAC_timerSet, LDL_MAC_timerCheck, LDL_MAC_timerTicksUntilNext"]}
{"id": "C36", "title": "Radio interrupt latch", "statement": "A radio interrupt is recorded only while one is expected, the time stamp of the first one is kept, it is delivered exactly once, and the next-event interval is zero while one is pending.", "quantifier": "all interleavings of interrupts, arming and processing", "why_tests_cant": "Interleavings.", "anchors": ["src/ldl_mac.c: inputSignal, inputArm, inputDisarm, inputCheck, inputPending"]}
{"id": "C37", "title": "Receive windows open on time", "statement": "After a transmission the RX1 window opens at transmit end + RX1 delay - advance - half the margin, and RX2 one second later with its own margin, independently of how late the interrupt was processed.", "quantifier": "all delays, data rates, clock rates, lags within the guard conditions", "why_tests_cant": "All parameter combinations.", "anchors": ["src/ldl_mac.c: processTX, processWait, LDL_MAC_timerAppend"]}
{"id": "C38", "title": "Receive window covers the clock error", "statement": "The receive window is long enough to cover the configured clock error on both sides plus five preamble symbols, with at least three symbols of margin.", "quantifier": "all clock errors, data rates and delays without 32-bit overflow", "why_tests_cant": "All parameters.", "anchors": ["src/ldl_mac.c: processTX, extraSymbols, symbolPeriod"]}
{"id": "C39", "title": "RX1 parameters follow the regional tables", "statement": "RX1 data rate and frequency are those of the regional parameters for the uplink data rate, offset and channel.", "quantifier": "all regions, uplink rates, legal and network-settable offsets, channels", "why_tests_cant": "All offsets the network can command.", "anchors": ["src/ldl_region.c: LDL_Region_getRX1DataRate, LDL_Region_getRX1Freq", "src/ldl_mac.c: processCommands"]}
{"id": "C40", "title": "Air time equals the LoRa formula", "statement": "The computed air time is the Semtech formula value rounded up to the next millisecond, or never less than it.", "quantifier": "all spreading factors, bandwidths and frame sizes the MAC sends", "why_tests_cant": "All sizes and settings.", "anchors": ["src/ldl_radio.c: LDL_Radio_getAirTime"]}
{"id": "C41", "title": "Rate and power settings are validated", "statement": "Setting a rate or power succeeds exactly for the values legal in the region, is then what the getter and the next session report show, and otherwise changes nothing.", "quantifier": "all regions and 8-bit arguments", "why_tests_cant": "All arguments in all states.", "anchors": ["src/ldl_mac.c: LDL_MAC_setRate, LDL_MAC_setPower, rateSettingIsValid", "src/ldl_region.c: LDL_Region_validateRate, LDL_Region_validateTXPower"]}
{"id": "C42", "title": "MTU is honest", "statement": "A payload no longer than the MTU reported is never refused for its size nor displaced by MAC commands.", "quantifier": "all session states", "why_tests_cant": "All rates, channel plans and pending answers.", "anchors": ["src/ldl_mac.c: LDL_MAC_mtu, externalDataCommand"]}
{"id": "C43", "title": "Frames fit the regional limit of the rate used", "statement": "Every data frame transmitted is no longer than the regional maximum for the data rate it is transmitted at.", "quantifier": "all session states and requests", "why_tests_cant": "All channel plans, rates, pending answers.", "anchors": ["src/ldl_mac.c: externalDataCommand, selectChannel", "src/ldl_region.c: LDL_Region_convertRate"]}
{"id": "C44", "title": "Link ADR requests are all-or-nothing", "statement": "A block of link ADR requests either takes effect completely (and all three answer bits are set) or leaves rate, power, repetitions and channel mask as they were (and at least one bit is clear).", "quantifier": "all session states and request blocks", "why_tests_cant": "All blocks and states.", "anchors": ["src/ldl_mac.c: processCommands"]}
{"id": "C45", "title": "The network cannot disable every channel", "statement": "After processing any downlink there is at least one channel that is not masked if there was one before.", "quantifier": "all session states, regions and downlinks", "why_tests_cant": "All command sequences.", "anchors": ["src/ldl_mac.c: processCommands, allChannelsAreMasked, maskChannel"]}
{"id": "C46", "title": "Repetitions are bounded and identical", "statement": "A send request is transmitted at most the configured number of times; every repetition carries the same counter and payload.", "quantifier": "all executions of a send operation", "why_tests_cant": "All radio and timing behaviours.", "anchors": ["src/ldl_mac.c: downlinkMissingHandler, externalDataCommand"]}
{"id": "C47", "title": "Confirmed data completes only when acknowledged", "statement": "A confirmed send reports DATA_COMPLETE only if an authentic downlink with the ACK flag was received in that operation; otherwise it reports DATA_TIMEOUT, an error or a cancellation. MAC-priority sends are reported as unconfirmed.", "quantifier": "all executions", "why_tests_cant": "All received frames and schedules.", "anchors": ["src/ldl_mac.c: processRX, downlinkMissingHandler, externalDataCommand"]}
{"id": "C48", "title": "ADR back-off", "statement": "While no downlink is received the device asks for an ADR acknowledgement after the limit and then steps power to maximum, rate down to the lowest and finally re-enables all channels; it never raises the rate or lowers the power by itself.", "quantifier": "all numbers of unanswered uplinks", "why_tests_cant": "Hundreds of uplinks without answer.", "anchors": ["src/ldl_mac.c: adaptRate"]}
{"id": "C49", "title": "Device status margin is clamped", "statement": "The margin reported in a device status answer is the received SNR clamped to -32..31 and survives the 6-bit encoding; battery is passed through.", "quantifier": "all 16-bit SNR values and battery levels", "why_tests_cant": "All values.", "anchors": ["src/ldl_mac.c: processCommands", "src/ldl_mac_commands.c: LDL_MAC_putDevStatusAns"]}
{"id": "C50", "title": "Session restore is guarded", "statement": "Initialisation takes over a stored session exactly when magic number and region match, and then continues with exactly its contents; otherwise it starts not joined with regional defaults.", "quantifier": "all stored sessions and regions", "why_tests_cant": "All byte patterns.", "anchors": ["src/ldl_mac.c: LDL_MAC_init, initSession, forgetNetwork"]}
{"id": "C51", "title": "Forget returns to defaults but keeps user settings", "statement": "Forgetting a network leaves the device not joined with default channels, receive parameters and counters, keeps region, rate, power and ADR setting, and reports the new session.", "quantifier": "all device states", "why_tests_cant": "All states.", "anchors": ["src/ldl_mac.c: LDL_MAC_forget, forgetNetwork"]}
{"id": "C52", "title": "Transmit power is bounded", "statement": "The power handed to the radio never exceeds the regional maximum nor the limit imposed by the network's TxParamSetup.", "quantifier": "all states reaching transmission", "why_tests_cant": "All settings.", "anchors": ["src/ldl_mac.c: processStartRadioForTX", "src/ldl_region.c: LDL_Region_getTXPower"]}
{"id": "C53", "title": "CFList only adds legal channels", "statement": "Processing a join accept channel list only defines channels at frequencies legal in the region, at indices not used by default channels, and in fixed-plan regions only changes the mask as the list says.", "quantifier": "all 16-byte lists, all regions", "why_tests_cant": "2^128 lists.", "anchors": ["src/ldl_region.c: LDL_Region_processCFList"]}
{"id": "C54", "title": "New channel requests are validated", "statement": "A new-channel request changes a channel exactly when both answer bits are set, which is when the frequency and rate range are legal; nothing else in the session changes except the pending answer.", "quantifier": "all requests and session states", "why_tests_cant": "All requests.", "anchors": ["src/ldl_mac.c: processCommands, setChannel", "src/ldl_region.c: LDL_Region_validateFreq, LDL_Region_validateRate"]}
{"id": "C55", "title": "Device time is exact to the clock resolution", "statement": "The device time event equals network time at transmission end plus the ticks elapsed since, converted to 1/256 s, rounded down.", "quantifier": "all times and lags", "why_tests_cant": "All 40-bit times and 32-bit lags.", "anchors": ["src/ldl_mac.c: processCommands, processTX"]}
{"id": "C56", "title": "Join channel plan", "statement": "Join requests always use a legal channel index and a rate within that channel's range for any number of trials and any random value; in the fixed plans (US915, AU915) every channel has its turn within any sixteen trials, if the random source so decides.", "quantifier": "all regions, trial counts and random values", "why_tests_cant": "Unbounded trials.", "anchors": ["src/ldl_region.c: LDL_Region_getJoinRate, LDL_Region_getJoinIndex", "src/ldl_mac.c: selectJoinChannelAndRate"]}
{"id": "C57", "title": "Legal frequencies belong to a band", "statement": "Every frequency accepted for a channel belongs to exactly one duty-cycle band known to the region, so an accepted channel can be used eventually, and band indices never exceed the band table.", "quantifier": "all 32-bit frequencies", "why_tests_cant": "2^32 frequencies.", "anchors": ["src/ldl_region.c: LDL_Region_validateFreq, LDL_Region_getBand, LDL_Region_getOffTimeFactor"]}
{"id": "C58", "title": "Sticky and single-shot answers", "statement": "Answers to RX parameter, downlink channel and RX timing requests are repeated in every uplink until a downlink is received; all other answers are sent exactly once.", "quantifier": "all executions", "why_tests_cant": "History property.", "anchors": ["src/ldl_mac.c: externalDataCommand, processRX, processCommands"]}
{"id": "C59", "title": "Ready means a send will find a channel", "statement": "If the device reports ready and a send is requested before anything else happens, it is not refused for lack of a channel.", "quantifier": "all device states", "why_tests_cant": "All states.", "anchors": ["src/ldl_mac.c: LDL_MAC_ready, timeUntilNextChannel, externalDataCommand"]}
{"id": "C60", "title": "Transmission happens only when requested and charged", "statement": "The radio transmits only as part of a join or send operation, and every transmission that ends is charged to its band exactly once.", "quantifier": "all executions", "why_tests_cant": "All schedules.", "anchors": ["src/ldl_mac.c: processStartRadioForTX, processTX, registerTime"]}
{"id": "C61", "title": "MAC commands take effect as specified", "statement": "For every authentic downlink, the session parameters afterwards (duty cycle, receive parameters, receive delay, channels, ADR parameters, TX parameters, device status and answers due) are the result of obeying the MAC commands it carries one after the other as the LoRaWAN specification says, and the application is told about link checks and device time exactly as received; nothing else in the session is changed by them.", "quantifier": "all configurations, reachable states with a data operation listening, all authentic downlinks with any list of MAC commands in the options or on port 0", "why_tests_cant": "the number of command sequences is unbounded and commands interact through shared session fields and pending bits", "anchors": ["src/ldl_mac.c: processCommands, processRX", "src/ldl_mac_commands.c: LDL_MAC_getDownCommand"]}
{"id": "C62", "title": "An authentic join accept is accepted", "statement": "While joining, a packet in a receive window that is the join accept for the join request last transmitted, with the right MIC and (1.0.4, 1.1) a JoinNonce not below the stored one, makes the device joined, ends the operation, and is reported by JOIN_COMPLETE with the address, network and next JoinNonce it carries.", "quantifier": "all executions over all restarts, all root keys and identifiers, all join accepts, all three protocol versions", "why_tests_cant": "Every key, nonce and join accept, at any time in the life of the device; a device that refuses the right answer never joins.", "anchors": ["src/ldl_ops.c: LDL_OPS_receiveFrame", "src/ldl_mac.c: processRX"]}
{"id": "C63", "title": "A join starts a fresh session with the parameters of the join accept", "statement": "After a reported join the frame counters are zero, and the RX1 data rate offset, RX2 data rate and RX1 delay (zero meaning one second, reserved bits ignored) are those of the join accept the device was sent.", "quantifier": "all executions over all restarts, all join accepts, all protocol versions", "why_tests_cant": "Every join accept at any time in the life of a device, after any earlier session.", "anchors": ["src/ldl_mac.c: processRX", "src/ldl_frame.c: LDL_Frame_decode"]}
{"id": "C64", "title": "The radio is used in order", "statement": "In every execution the calls on the radio interface follow its protocol (reset before anything else, boot, sleep, ready, transmit or receive, hold or sleep), the radio is in the mode that belongs to what the device is doing, and the SX1272/SX1276 driver never hits an illegal mode change.", "quantifier": "all executions, all environments, chips with arbitrary content at start, chip events at any time", "why_tests_cant": "the order of radio calls results from timers, interrupts, cancellations and radio errors in any interleaving", "anchors": ["src/ldl_mac.c: LDL_MAC_process, LDL_MAC_cancel", "src/ldl_sx127x.c: LDL_SX127X_setMode", "include/ldl_radio.h: enum ldl_radio_mode"]}
{"id": "C65", "title": "The chip transmits exactly what was asked", "statement": "On an SX1272 or SX1276, the transmissions of the chip over an execution are, one by one, those the MAC asked for: the same bytes, the carrier next below the frequency in synthesiser steps, the spreading factor and bandwidth, coding rate 4/5, explicit header, CRC, normal IQ, public sync word, 8 symbol preamble, low data rate optimisation when the symbol exceeds 16 ms, and the end is signalled to the driver; nothing else is transmitted.", "quantifier": "all executions, all settings and frames, all initial chip contents, all chip events between calls", "why_tests_cant": "every register write of every earlier operation can influence a later transmission; tests compare bus traffic for examples", "anchors": ["src/ldl_sx127x.c: LDL_SX127X_transmit, setModemConfig, setFreq, writeFIFO", "src/ldl_sx127x.c: LDL_SX127X_setMode"]}
{"id": "C66", "title": "The chip listens exactly as asked", "statement": "On an SX1272 or SX1276, the receive windows the chip opens over an execution are, one by one, those the MAC asked for: carrier, spreading factor, bandwidth, inverted IQ, sync word, symbol timeout limited to the register, maximum length; ends of windows are signalled.", "quantifier": "all executions, all settings, all initial chip contents, all chip events between calls", "why_tests_cant": "as C65", "anchors": ["src/ldl_sx127x.c: LDL_SX127X_receive"]}
{"id": "C67", "title": "Transmit power is the requested power", "statement": "The power an SX1272 or SX1276 emits plus the configured antenna gain does not exceed the requested EIRP unless the amplifier cannot go that low, is at most 1.2 dB below it unless the amplifier cannot go that high, and the amplifier pin and accessory lines match.", "quantifier": "all EIRPs the regions produce, all antenna gains, all amplifier settings, both chips", "why_tests_cant": "all powers, gains and amplifier configurations", "anchors": ["src/ldl_sx127x.c: setPower"]}
{"id": "C68", "title": "The radio sleeps when it is not needed", "statement": "Whenever the device is idle or waits for its turn to send, an SX1272 or SX1276 is in sleep mode with the oscillator off; between transmission and windows it is in sleep mode when it has a crystal.", "quantifier": "all executions, all chip events", "why_tests_cant": "a radio left on by some path drains the battery; all paths are quantified over", "anchors": ["src/ldl_mac.c: LDL_MAC_process, LDL_MAC_cancel", "src/ldl_sx127x.c: LDL_SX127X_setMode"]}
{"id": "C69", "title": "Received packets are read out unchanged", "statement": "When a packet arrives in a receive window of an SX1272 or SX1276, reading the buffer returns exactly its bytes, cut to the size of the caller's buffer, and never more than that.", "quantifier": "all executions, all packets up to 255 bytes, all buffer sizes, all FIFO contents before", "why_tests_cant": "every packet, length and earlier FIFO content", "anchors": ["src/ldl_sx127x.c: LDL_SX127X_readBuffer"]}
{"id": "C70", "title": "Signal quality is reported as measured", "statement": "The SNR and RSSI reported with a packet are those of the chip.", "quantifier": "all register values, both chips", "why_tests_cant": "all 65536 pairs of register values", "anchors": ["src/ldl_sx127x.c: LDL_SX127X_readBuffer"]}
{"id": "C71", "title": "Radio status and entropy", "statement": "After a transmission or window is started no status is pending; when the chip ends it, the status read is exactly transmit complete, receive complete or timeout as the case may be. Each of the 32 bits of a random number comes from a noise sample of its own.", "quantifier": "all executions, all settings, all chip events, all noise samples", "why_tests_cant": "stale interrupt flags depend on the whole history of the chip", "anchors": ["src/ldl_sx127x.c: LDL_SX127X_getStatus, LDL_SX127X_readEntropy"]}
{"id": "C72", "title": "The SX126x driver never aborts", "statement": "In every execution, whatever accesses to the chip fail because it is busy and whatever it does meanwhile, the SX1261/SX1262/WL55 driver carries out every call of the MAC without an illegal mode change.", "quantifier": "all executions, all boards, chips with arbitrary content, any pattern of failing accesses, chip events at any time", "why_tests_cant": "the order of radio calls results from timers, interrupts and cancellations in any interleaving; failures can hit any access", "anchors": ["src/ldl_sx126x.c: LDL_SX126X_setMode", "src/ldl_mac.c: LDL_MAC_process"]}
{"id": "C73", "title": "The SX126x transmits exactly what was asked", "statement": "If no access fails, the transmissions of an SX1261, SX1262 or WL55 over an execution are, one by one, those the MAC asked for: the same bytes, the carrier next below the frequency, spreading factor, bandwidth, coding rate 4/5, explicit header, CRC, normal IQ, public sync word, 8 symbol preamble, low data rate optimisation when the symbol exceeds 16 ms, no transmit timer, the end signalled on DIO1; regulator, antenna switch and TCXO are set up for the board, the image is calibrated for the band and the amplifier and accessory lines match the board.", "quantifier": "all executions, all boards, all settings and frames, all initial chip contents, all chip events between calls", "why_tests_cant": "the chip loses its configuration at every cold sleep and keeps it over warm sleep: each command of the whole history matters", "anchors": ["src/ldl_sx126x.c: LDL_SX126X_transmit, LDL_SX126X_setMode, CalibrateImage, SetPower"]}
{"id": "C74", "title": "The SX126x listens exactly as asked", "statement": "If no access fails, the receive windows an SX1261, SX1262 or WL55 opens over an execution are, one by one, those the MAC asked for: carrier, spreading factor, bandwidth, inverted IQ, sync word, symbol timeout up to 255, maximum length, both ends signalled; the chip is set up for the board and the image calibrated.", "quantifier": "all executions, all boards, all settings, all initial chip contents, all chip events between calls", "why_tests_cant": "as C73", "anchors": ["src/ldl_sx126x.c: LDL_SX126X_receive"]}
{"id": "C75", "title": "A failing bus never causes a wrong transmission", "statement": "Whichever accesses to an SX1261, SX1262 or WL55 fail, whatever it puts on the air is a transmission the MAC asked for, with the settings, bytes and power asked for, in the order asked and at most once; the same holds for receive windows.", "quantifier": "all executions, all boards, any pattern of failing accesses, all initial chip contents, all chip events", "why_tests_cant": "an access may fail at any point of any command sequence, leaving the chip half configured", "anchors": ["src/ldl_sx126x.c: LDL_SX126X_transmit, LDL_SX126X_receive, LDL_SX126X_receiveEntropy"]}
{"id": "C76", "title": "The SX126x sleeps when it is not needed", "statement": "If no access fails, an SX1261, SX1262 or WL55 is in sleep mode, accessory lines included, whenever the device is idle or waits for its turn to send; between transmission and windows it is in sleep mode without losing its set-up.", "quantifier": "all executions, all boards, all chip events", "why_tests_cant": "a radio left on by some path drains the battery; all paths are quantified over", "anchors": ["src/ldl_sx126x.c: LDL_SX126X_setMode"]}
{"id": "C77", "title": "The SX126x driver returns received packets unchanged", "statement": "When a packet arrives in a receive window of an SX1261, SX1262 or WL55, reading the buffer returns exactly its bytes, cut to the size of the caller's buffer; if an access fails, nothing is returned.", "quantifier": "all executions, all packets up to 255 bytes, all buffer sizes, all buffer contents before, all failing accesses", "why_tests_cant": "every packet, length, earlier buffer content and failure point", "anchors": ["src/ldl_sx126x.c: LDL_SX126X_readBuffer"]}
{"id": "C78", "title": "The SX126x driver reports signal quality as measured", "statement": "The SNR and RSSI reported with a packet are those of the chip, to less than 1 dB.", "quantifier": "all values of the packet status", "why_tests_cant": "all 65536 pairs of values", "anchors": ["src/ldl_sx126x.c: LDL_SX126X_readBuffer, GetPacketStatus"]}
{"id": "C79", "title": "SX126x status and entropy", "statement": "If no access fails, no status is pending after a transmission or window is started; when the chip ends it, the status read is exactly transmit complete, receive complete or timeout as the case may be. The random number is the content of the chip's random number register.", "quantifier": "all executions, all settings, all chip events, all register values", "why_tests_cant": "pending interrupts depend on the whole history of the chip", "anchors": ["src/ldl_sx126x.c: LDL_SX126X_getStatus, LDL_SX126X_readEntropy, ClearIrqStatus"]}
{"id": "C80", "title": "SX126x transmit power is the requested power", "statement": "The power an SX1261, SX1262 or WL55 emits plus the configured antenna gain does not exceed the requested EIRP unless the amplifier cannot go that low, and is less than 1 dB below it unless the amplifier cannot go that high.", "quantifier": "all executions, all EIRPs the regions produce, all antenna gains, all amplifier settings, three chips", "why_tests_cant": "all powers, gains and amplifier configurations", "anchors": ["src/ldl_sx126x.c: SetPower"]}
{"id": "C81", "title": "The mbed wrapper stores what must survive a restart", "statement": "A device using the mbed wrapper keeps, over restarts and power losses at any moment, the DevNonce, JoinNonce and session the MAC reports, so join requests never repeat a DevNonce and sessions continue (C19 to C23 hold for it).", "quantifier": "all sequences of calls, restarts and power losses after any event", "why_tests_cant": "crash points and histories are unbounded; the failure is after 65536 join requests", "anchors": ["wrappers/mbed/mac.cpp: MAC::app_handler, MAC::start", "wrappers/mbed/store.h: Store"]}
{"id": "C82", "title": "Device may be used by any number of threads", "statement": "Whatever the interleaving of threads, worker, timer and radio interrupt, methods of Device behave as if executed one at a time by a single thread: each calls the MAC for what it stands for, once between its call and its return, and its own caller gets the answer; the MAC is never used in a way its documentation forbids.", "quantifier": "all interleavings, any number of threads, all methods and arguments", "why_tests_cant": "schedules are unbounded", "anchors": ["wrappers/mbed/device.cpp: Device::worker, do_* methods", "wrappers/mbed/_device.h: accessor"]}
{"id": "C83", "title": "Requests to Device are answered", "statement": "A method of Device does not hang waiting for the worker: while a thread waits for the answer to its request the worker can always go on, and answers within a bounded number of steps whatever other threads do; there is no deadlock.", "quantifier": "all interleavings and reachable states, any number of threads", "why_tests_cant": "absence of lost wake-ups and deadlock over all schedules", "anchors": ["wrappers/mbed/device.cpp: Device::worker", "wrappers/mbed/_device.h: accessor, work_semaphore, status_semaphore, queue_semaphore"]}
{"id": "C84", "title": "Blocking methods return the outcome of their own operation", "statement": "otaa, unconfirmed, confirmed and entropy return the refusal of the MAC, or wait until the operation they started ends, and then return what became of that operation.", "quantifier": "all interleavings of threads, worker, timer and interrupt; all histories", "why_tests_cant": "depends on schedules and on flags left over by earlier operations", "anchors": ["wrappers/mbed/device.cpp: Device::otaa, Device::data_service, Device::entropy, Device::handle_mac_event"]}
{"id": "C85", "title": "Processing comes to rest", "statement": "Calling LDL_MAC_process while LDL_MAC_ticksUntilNextEvent returns zero ends after a bounded number of calls, from any state, even if no time passes.", "quantifier": "all reachable states, all clock values, all answers of the radio", "why_tests_cant": "all states and all clock values", "anchors": ["src/ldl_mac.c: LDL_MAC_process, LDL_MAC_ticksUntilNextEvent", "src/ldl_mac.c: LDL_MAC_timerCheck, LDL_MAC_timerTicksUntilNext"]}
{"id": "C86", "title": "ADR requests are judged and applied as the standard says", "statement": "For every authentic downlink with a block of LinkADRReq, the answer says that all is acceptable exactly if, by the standard, the channel masks are defined, enable no undefined channel and leave a usable one, the data rate exists and is possible on an enabled channel, and the power exists; then the rate, power, number of repetitions and channels become those requested, otherwise nothing changes.", "quantifier": "all configurations, reachable states with a data operation listening, all authentic downlinks with LinkADRReq blocks of any length among any other commands, all regions", "why_tests_cant": "blocks of any length with any masks, on any channel plan built by earlier commands", "anchors": ["src/ldl_mac.c: processCommands, adaptRate", "src/ldl_mac_commands.c: LDL_MAC_getDownCommand", "src/ldl_region.c: LDL_Region_maskChannel"]}
{"id": "C87", "title": "Radios share a bus", "statement": "However the accesses to any number of radios on one SPI bus interleave, each radio sees exactly the bytes of the accesses made to it, whole and in order, between its selection and deselection; an access returns whether it was made; the bus is always released; an access is given up only when the radio has been busy for a second after it was selected.", "quantifier": "all numbers of radios, all interleavings of calls, all behaviours of the busy lines and all times", "why_tests_cant": "depends on the schedule of several radios and on the timing of their busy lines", "anchors": ["wrappers/mbed/spi_radio.cpp: SPIRadio::read, write, wait_until_not_busy", "wrappers/mbed/wl55.cpp: get_prescale"]}
{"id": "C88", "title": "Repetitions respect the half hour limit", "statement": "A data frame, first sent or repeated, is handed to the radio only while the off-time still owed, in the band of its channel and in aggregate, is at most half an hour.", "quantifier": "all reachable states, all regions and channel plans, all calls between the transmissions, all random numbers", "why_tests_cant": "depends on the history of transmissions in every band and on the channel drawn", "anchors": ["src/ldl_mac.c: downlinkMissingHandler, selectChannel, registerTime", "src/ldl_region.c: LDL_Region_getMaxDCycleOffLimit, LDL_Region_getBand"]}
{"id": "C89", "title": "Time between the transmissions of a frame", "statement": "A confirmed frame that is not acknowledged is repeated after waits that double: at least 2 s between its first and second transmission, 4 s before the third, 8 s before the fourth, and so on; an unconfirmed frame is repeated without a wait. After an attempt that did not end the operation the next transmission is made at the first processing after the wait and the start of the radio.", "quantifier": "all reachable states, all requests, all numbers of repetitions whose longest wait fits a timer, all calls and all times between the transmissions, late processing included", "why_tests_cant": "depends on the number of earlier transmissions, on the calls in between and on the wrapping of the timers", "anchors": ["src/ldl_mac.c: downlinkMissingHandler, processWait, processStartRadioForTX", "src/ldl_mac.c: timerSet, timerCheck"]}
{"id": "C90", "title": "The SX126x image is calibrated once per cold start", "statement": "Whichever accesses to an SX1261, SX1262 or WL55 fail, the image calibration command reaches the chip at most once between two occasions on which it is told to forget its set-up; whenever a transmission or receive window of the MAC is started it has reached the chip exactly once, so a calibration that failed is made up for and windows are not delayed by another one.", "quantifier": "all executions, all boards, any pattern of failing accesses, all initial chip contents, all chip events", "why_tests_cant": "an access may fail at any point of any history, and the driver must remember across sleep and wake-up whether calibration is due", "anchors": ["src/ldl_sx126x.c: LDL_SX126X_setMode, LDL_SX126X_transmit, LDL_SX126X_receive, CalibrateImage", "include/ldl_radio.h: image_calibration_pending"]}
{"id": "C91", "title": "Radio interrupts may come at any point of a call", "statement": "A radio interrupt may be signalled at any point while another call of the library runs: the result is as if it had been signalled before or after that call. The exception is an interrupt during the very processing call that gives up on the radio: it is kept until the next processing call, which drops it without acting on it. So no interrupt, wherever it comes, leads to a state or event that is not possible when all calls follow one another, the first of several interrupts counts, and none is lost while the radio is in use.", "quantifier": "all reachable states, all calls, all numbers, times and positions of interrupts in them, all histories", "why_tests_cant": "the interrupt can come between any two instructions, in any state", "anchors": ["include/ldl_mac.h: LDL_MAC_radioEvent, LDL_MAC_radioEventWithTicks (interrupt safe)", "src/ldl_mac.c: inputSignal, inputArm, inputDisarm, inputCheck, LDL_MAC_process, handleRadioError"]}
{"id": "C92", "title": "The radio runs from the configured oscillator", "statement": "On an SX1272 or SX1276, whenever the radio is asked to send or to listen, and at every other moment at which it is out of sleep in LoRa mode, it takes its clock from a TCXO exactly if a TCXO was configured, after any number of resets and radio errors, and no other bit of the oscillator register differs from its reset value.", "quantifier": "all executions, all moments in them, both chips, all oscillators, all states of the chip before its first reset, all reset values of the register", "why_tests_cant": "a reset can come at any point of any history and clears the bit; it must be set again before every use", "anchors": ["src/ldl_sx127x.c: LDL_SX127X_setMode, setXTAL, setXTALReg, writeReg", "include/ldl_radio.h: enum ldl_radio_xtal"]}
{"id": "C93", "title": "The next operation may be requested from a callback", "statement": "An application may request an operation (entropy, join, send) from inside its event callback. While an operation is in progress the request is refused and changes nothing, so that the processing call goes on as if it had not been made. In the callbacks by which an operation has ended (entropy, error, join complete, the report of the session after a downlink) it is accepted or refused as it would be after the processing call, and has the same effect. In the callback that tells an idle device that a channel is ready, it has the effect it would have after the processing call, and the call goes on with the operation.", "quantifier": "all states, all processing calls, all requests with all arguments, in any number in each callback, for all received frames", "why_tests_cant": "the callback runs in the middle of the state machine, with some of the state already changed and some not yet, at each of a dozen places", "anchors": ["include/ldl_mac.h: ldl_mac_response_fn, LDL_MAC_entropy, LDL_MAC_otaa, LDL_MAC_unconfirmedData, LDL_MAC_confirmedData", "src/ldl_mac.c: LDL_MAC_process, processRX, handleRadioError, downlinkMissingHandler, processEntropy, processBands, processCommands, pushSessionUpdate"]}
{"id": "C94", "title": "Dwell time", "statement": "Where uplinks are limited to 400 ms on the air (US915 always; AU915 while the uplink dwell time limit is in force, which it is by default and until a TXParamSetupReq lifts it) no frame that is transmitted, join request or data, first transmission or repetition, is on the air for longer.", "quantifier": "all reachable states, all requests with all payloads and options, all histories of calls after the request, all channels and data rates", "why_tests_cant": "Depends on the rate set, the range of the channel picked at random, the payload and every combination of pending MAC answers.", "anchors": ["src/ldl_region.c: LDL_Region_convertRate, LDL_Region_getJoinRate, LDL_Region_getJoinIndex, LDL_Region_applyUplinkDwell", "src/ldl_mac.c: externalDataCommand, selectJoinChannelAndRate, uplinkDwell"]}
{"id": "C95", "title": "Interrupts reach the MAC", "statement": "On the radios of the mbed wrapper the event handler of the MAC is called exactly once for each transmission and each receive window that ends, after it has ended: it is not called while an operation goes on, not called by setting up or tearing down one, not lost and not repeated. Listening for noise makes no call. A window the MAC gives up on before it ends makes no call. This holds if every access to the chip succeeds.", "quantifier": "all executions of the MAC and every prefix of their radio calls, all boards, all contents of the chip at the start, all times and kinds of ends, any delay of the interrupt within the time until the next radio call", "why_tests_cant": "depends on the order of masking, clearing and enabling interrupts in the driver and in the wrapper over all histories of radio calls, with the interrupt coming at any point between two accesses", "anchors": ["wrappers/mbed/wl55.cpp: enable_irq, disable_irq, WL55::_handle_irq, WL55::chip_set_mode", "wrappers/mbed/sx126x.cpp: SX126X::SX126X, SX126X::dio1_handler", "wrappers/mbed/sx127x.cpp: SX127X::SX127X, SX127X::dio0_handler, SX127X::dio1_handler", "src/ldl_radio.c: LDL_Radio_handleInterrupt", "src/ldl_sx126x.c: LDL_SX126X_setMode, LDL_SX126X_transmit, LDL_SX126X_receive, LDL_SX126X_receiveEntropy", "src/ldl_sx127x.c: LDL_SX127X_setMode, LDL_SX127X_transmit, LDL_SX127X_receive, LDL_SX127X_receiveEntropy"]}
{"id": "C96", "title": "The radio is reset when the MAC asks for it", "statement": "On the radios of the mbed wrapper the chip is held in reset exactly while reset is the last mode the MAC has asked for: it is put into reset by the request, taken out of it by the next one, and never put into reset otherwise. The chip is not accessed while it is in reset. (Which level means reset is taken from the data sheets: low for SX1261, SX1262 and SX1276, high for SX1272.)", "quantifier": "all executions of the MAC and every prefix of their radio calls, all settings of the driver, all answers of the chip, all patterns of failed accesses", "why_tests_cant": "the line is released by the wrapper only for one of five chip modes, so it depends on the order of calls in all histories that the driver uses that mode first; on real boards a missing reset shows only after a crash or a radio error", "anchors": ["wrappers/mbed/sx126x.cpp: SX126X::SX126X, SX126X::chip_set_mode", "wrappers/mbed/sx127x.cpp: SX127X::SX127X, SX127X::chip_set_mode", "wrappers/mbed/wl55.cpp: WL55::chip_set_mode", "src/ldl_sx126x.c: LDL_SX126X_setMode", "src/ldl_sx127x.c: LDL_SX127X_setMode", "include/ldl_chip.h: ldl_chip_mode"]}
{"id": "C97", "title": "The second window is used unless the first brought a downlink", "statement": "After an uplink a device listens in the second receive window, at its frequency, spreading factor and bandwidth, before it reports the result, gives up or transmits again, unless it has accepted a downlink in the first window, the application has broken the transfer off, or the radio has failed.", "quantifier": "all reachable devices that transmit, all later calls, times, radio answers and received packets", "why_tests_cant": "the way from the transmission to its result leads through timers, late calls, windows that are missed and anything that is received; a test takes one of these ways", "anchors": ["src/ldl_mac.c: processTX, processWait, processStartRadioForRX2, processRX, processRX2Lockout, downlinkMissingHandler", "src/ldl_ops.c: LDL_OPS_receiveFrame"]}
{"id": "C98", "title": "Debugging the radio does not change what it does", "statement": "On an SX1272 or SX1276, a build with radio debugging leaves driver and chip, after every history of requests, as a normal build does; each call of the driver logs the accesses it makes, in order and completely, without writing outside of the log.", "quantifier": "all states of driver and chip, all histories of requests, all contents of the log, all accesses", "why_tests_cant": "all states of the chip and all histories", "anchors": ["src/ldl_sx127x.c: LDL_SX127X_setMode, LDL_SX127X_transmit, LDL_SX127X_receive, SX1272_setPower, SX1276_setPower, rxDiagnostics", "src/ldl_sx127x.c: debugLogReset, debugLogPush, debugLogFlush", "include/ldl_radio.h: struct ldl_sx127x_debug_log"]}
{"id": "C99", "title": "Lines of debug output are right and stay in their buffer", "statement": "On mbed, a line of debug output put together from texts, bytes in hexadecimal and bit strings is printed as the texts, two digits for each byte and eight bits for each byte, and no memory outside of the buffer is written, however long the line is.", "quantifier": "all lines, all previous contents of the buffer", "why_tests_cant": "lines of any length and content, over any remains of earlier lines", "anchors": ["wrappers/mbed/mbed_ldl_port.cpp: my_trace_begin, my_trace_part, my_trace_hex, my_trace_bitstring, my_trace_end", "src/ldl_mac.c: debugSession"]}
{"id": "C100", "title": "Options with the A1 errata", "statement": "A build with LDL_ENABLE_ERRATA_A1 differs from the default build in one thing: in a 1.1 session FOpts are en- and decrypted with the block of the errata (0x01, 3 x 0x00, 1 or 2 by the counter in use, direction, DevAddr, FCnt, 0x00, 0x01). So options sent by the device are read unchanged by a server that follows the errata and the other way round, and no octet of the key stream for options is used for anything else.", "quantifier": "all frames, sessions, keys and ciphers, both directions", "why_tests_cant": "all addresses, counters and contents; uniqueness of blocks over all pairs of frames", "anchors": ["src/ldl_ops.c: LDL_OPS_prepareData, LDL_OPS_receiveFrame, initA", "include/ldl_platform.h: LDL_ENABLE_ERRATA_A1"]}
{"id": "C101", "title": "Device and network after a join", "statement": "Over any history of joins, sends, restarts and crashes of a device that is activated over the air, the session of a joined device is the one the network derives, from the device's root keys, out of the last join request the device sent and an authentic join accept answering it: same version, session keys and address. So a network server written from the specification, which has nothing but those, accepts every data frame the device transmits, at the counter in storage less one, and every message it sends while the device listens after an uplink is delivered.", "quantifier": "all histories of calls, radio events and crashes (without activation by personalisation), all root keys, ciphers and join accepts, all uplinks and downlinks", "why_tests_cant": "needs every interleaving of joins, crashes and restarts from storage, and every frame", "anchors": ["src/ldl_mac.c: LDL_MAC_init, LDL_MAC_otaa, LDL_MAC_process, processRX, externalDataCommand", "src/ldl_ops.c: LDL_OPS_deriveKeys, LDL_OPS_prepareData, LDL_OPS_micDataFrame, LDL_OPS_receiveFrame"]}
{"id": "C102", "title": "Sleeping until the time told is as good as polling", "statement": "An application may sleep until the time LDL_MAC_ticksUntilNextEvent told it, or until the radio interrupts, instead of calling LDL_MAC_process all the time. If LDL_MAC_process is called any number of times before that, at whatever times, and none of these calls reports anything, the next call does exactly what it would have done without them, reports the same, asks the radio for the same and asks to be called at the same time; and so does every call after that.", "quantifier": "all reachable states, all numbers and times of further calls (including across a wrap of the clock), all tick rates from 512 Hz to 16 MHz, all later histories", "why_tests_cant": "the number and the times of the calls are unbounded, and rounding errors of counting in small steps show only for some of them", "anchors": ["src/ldl_mac.c: LDL_MAC_process, LDL_MAC_ticksUntilNextEvent, LDL_MAC_timerTicksUntilNext, processBands, setNextBandEvent, updateDownCounter, timerDelta"]}
{"id": "C103", "title": "Builds without SF12 do not transmit at SF12", "statement": "In a build with LDL_DISABLE_SF12, a device started without a stored session never transmits with spreading factor 12, neither data nor join requests, whatever is called and however often it fails to join or to be answered, unless the application sets data rate 0, the network asks for it, or a channel allows no other.", "quantifier": "all histories of calls and radio events from start-up, all regions, all random draws, all numbers of failed joins and unanswered uplinks", "why_tests_cant": "the rate falls over histories of hundreds of uplinks and join attempts of any length, and every interleaving of them counts", "anchors": ["include/ldl_platform.h: LDL_DISABLE_SF12", "src/ldl_mac.c: adaptRate, initSession, processRX, selectJoinChannelAndRate, externalDataCommand", "src/ldl_region.c: LDL_Region_getJoinRate, MIN_RATE"]}
{"id": "C104", "title": "Join requests are spread at random", "statement": "Once off-time no longer holds a join request back, it is transmitted a random delay and the start-up of the radio later, and not before, whatever is called in between; the delay is below an interval of 30 s, or of the number of seconds given to LDL_MAC_init in a build with LDL_ENABLE_OTAA_DITHER (none for 0); every delay below the interval, in ticks, can be drawn, and each by equally many values of the random source, up to one.", "quantifier": "all histories, all clock rates and intervals, all values of the random source, all delays, all calls made during the delay", "why_tests_cant": "the delays are as many as the ticks of the interval, the random values are 2^32, and a test sees few of them and of the calls made meanwhile", "anchors": ["src/ldl_mac.c: processWaitOTAA, processWait, LDL_MAC_otaa", "include/ldl_mac.h: ldl_mac_init_arg.otaaDither", "include/ldl_platform.h: LDL_ENABLE_OTAA_DITHER"]}
{"id": "C105", "title": "Bytes on the bus of the STM32WL", "statement": "With the radio inside the STM32WL, the bytes of an opcode and its data are clocked out in order and nothing else; the bytes returned by a read are those the radio clocked in for them, in order; and no byte is left over for the next access.", "quantifier": "all opcodes, data and sizes, all answers and response times of the peripheral, all clock frequencies", "why_tests_cant": "a test runs with one clock and one timing of the peripheral; what is read depends on the timing of every byte", "anchors": ["wrappers/mbed/wl55.cpp: write_spi, read_spi, WL55::chip_write, WL55::chip_read"]}
{"id": "C106", "title": "MAC commands of class B", "statement": "In a build with LDL_ENABLE_CLASS_B, the class B commands a device sends are encoded, and those it receives decoded, as in the LoRaWAN specification, whatever is in their free bits; the size by which an answer is accounted for is the number of its bytes; and commands that are not of class B are read as without the option.", "quantifier": "all fields, all sequences of commands, all buffers", "why_tests_cant": "sequences of commands of any length and every value of their fields", "anchors": ["src/ldl_mac_commands.c: LDL_MAC_putPingSlotInfoReq, LDL_MAC_putPingSlotChannelAns, LDL_MAC_putBeaconTimingReq, LDL_MAC_putBeaconFreqAns, LDL_MAC_getDownCommand, LDL_MAC_sizeofCommandUp, tags", "include/ldl_platform.h: LDL_ENABLE_CLASS_B"]}
{"id": "C107", "title": "Nothing is lost with the power", "statement": "An application that stores the session whenever it is told to (SESSION_UPDATED) and starts with the stored session has, after a power loss at any moment, exactly the session the device had: membership, counters, channels and masks, rate, power, receive parameters, answers still owed to the network. Before joining the same holds but for the DevNonce of the last request, which is stored separately. Whatever happened before, an accepted uplink leaves the session in storage.", "quantifier": "all histories of calls, all received frames, all power losses, also between two events of one call", "why_tests_cant": "the session changes at many places, each of which must report it after the last change; a test restarts at few of them", "anchors": ["src/ldl_mac.c: pushSessionUpdate and all callers, adaptRate, LDL_MAC_abp, LDL_MAC_init", "include/ldl_mac.h: LDL_MAC_SESSION_UPDATED"]}
{"id": "C108", "title": "Confirmed downlinks are acknowledged", "statement": "After a confirmed downlink LDL_MAC_getAckPending is true, and the next uplink the application requests has the ACK bit in every one of its transmissions, whatever happens in between: failed or refused requests, radio errors, cancelled operations, rejected packets, changed settings. Once a transmission has been completed no uplink acknowledges anything until another data message has been accepted. LDL_MAC_getAckPending and LDL_MAC_getFPending change when a data message is accepted, a transmission is completed (the first only) or the network is left, and at no other time.", "quantifier": "all states, calls and environments; all histories between downlink and uplink and after it", "why_tests_cant": "the flags are two fields of the state that every handler can reach; they must survive all interleavings of calls, interrupts, errors and retries", "anchors": ["src/ldl_mac.c: LDL_MAC_getAckPending, LDL_MAC_getFPending, processTX, processRX, forgetNetwork, externalDataCommand", "include/ldl_mac.h: LDL_MAC_getAckPending"]}
{"id": "C109", "title": "Every join gives new keys", "statement": "The keys of a session are never those of an earlier session of the device: when a device that was a member of a network has sent a join request and is a member of a network again, each of its session keys (FNwkSIntKey, SNwkSIntKey, NwkSEncKey, AppSKey) differs from the key for that purpose at the earlier time, whatever the networks answered and whenever power was lost. With C23, which is about one session, no key stream is used twice in the life of a device.", "quantifier": "all histories of calls, answers of the network and power losses; any two moments of a life; every cipher that is one-to-one on blocks (AES is)", "why_tests_cant": "a statement about all pairs of moments in unbounded lives with power losses at any point", "anchors": ["src/ldl_ops.c: LDL_OPS_deriveKeys", "src/ldl_mac.c: LDL_MAC_otaa, LDL_MAC_abp, LDL_MAC_forget, forgetNetwork"]}
{"id": "C110", "title": "No key stream is used twice in the life of a device", "statement": "Of any two uplinks a device has ever handed to the radio, other than transmissions of the same frame, no block of key stream used for the payload or for commands is common to both, whatever joins, restarts and power losses happened before and between them: the session keys or the counter blocks are different. Each of them is accepted by the network in the session of the last join request before it.", "quantifier": "all histories of calls, answers of the network and power losses of a device activated over the air; any two uplinks in it; all blocks of both; every cipher that is one-to-one on blocks (AES is)", "why_tests_cant": "a statement about all pairs of transmissions in unbounded lives with power losses at any point", "anchors": ["src/ldl_ops.c: LDL_OPS_deriveKeys, LDL_OPS_prepareData", "src/ldl_mac.c: LDL_MAC_otaa, LDL_MAC_forget, externalDataCommand, processTX"]}
{"id": "C111", "title": "Asking, joining, sending and leaving happen in order", "statement": "Over the whole life of a device activated over the air, with power losses anywhere: data frames are handed to the radio only while the session of a JOIN_COMPLETE is in storage; JOIN_COMPLETE is reported only for a join request sent since the last one; the session of a member is stored only after JOIN_COMPLETE; a member sends no join request until it has left the network, and that it has left is stored before. The device is joined exactly when the last such event in storage says so.", "quantifier": "all histories of calls, packets, radio events and power losses at any event", "why_tests_cant": "a safety property of unbounded traces with restarts at any point", "anchors": ["src/ldl_mac.c: LDL_MAC_otaa, LDL_MAC_forget, LDL_MAC_joined, processRX, processTX, externalDataCommand, pushSessionUpdate", "include/ldl_mac.h: LDL_MAC_JOIN_COMPLETE, LDL_MAC_SESSION_UPDATED"]}
{"id": "C112", "title": "What the application hears comes from the network of the last join", "statement": "Over the whole life of a device activated over the air, with power losses and restarts anywhere, the application is told of a received message, of an answer to a link check or time request, or that its confirmed message was acknowledged only by LDL_MAC_process in a receive window after an uplink, and only when the octets received carry the device address and a valid MIC of the session derived from the root keys, the last join request sent and an authentic join accept. In a 1.1 session an acknowledgement is one for the uplink last counted in storage. The port and payload of a message reported are those in the packet, decrypted under the keys of that session.", "quantifier": "all histories of calls, packets, radio events and power losses, all received octets", "why_tests_cant": "ranges over every packet an attacker can send at every point of an unbounded history", "anchors": ["src/ldl_mac.c: processRX, LDL_MAC_process", "src/ldl_ops.c: LDL_OPS_receiveFrame, LDL_OPS_deriveKeys", "include/ldl_mac.h: LDL_MAC_RX, LDL_MAC_LINK_STATUS, LDL_MAC_DEVICE_TIME, LDL_MAC_DATA_COMPLETE"]}
