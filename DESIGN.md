# Formal model of lora_device_lib in Lean 4

## Layout

| Path | Content |
| --- | --- |
| `lean/Verif/Model/*.lean` | the model: one file per C file, every definition cites the C lines it models |
| `lean/Verif/Spec/*.lean` | small specifications written from the standards (LoRaWAN frame layout, FIPS-197, RFC 4493, Semtech air time), independent of the model |
| `lean/Verif/Lemmas/*.lean` | helper lemmas |
| `lean/Verif/Props/*.lean` | the property theorems, one file per area, with non-vacuity examples beside them |

## Trusted base

* Lean 4.33.0's kernel and the axioms `propext`, `Classical.choice`, `Quot.sound`.  No other axiom is
  used: no `sorry`, `native_decide`, `bv_decide`, or axioms of our own.
* The faithfulness of the hand-written model to the C code.  Each definition cites its source lines and
  names its simplifications.
* For C64 to C71: the description of the chip in `Spec/Sx127xChip.lean`, written from the data sheets of the SX1272
  and SX1276.  The chip starts with arbitrary register contents; it may raise interrupt flags, finish transmissions,
  receive packets or time out between any two calls of the MAC (not in the middle of a call).
* For C72 to C80: the description of the SX1261/SX1262 in `Spec/Sx126xChip.lean`, in the same way; the radio of the
  STM32WL55 is taken to be the same.
* For C82 to C84: the semantics of the operating system primitives stated at the head of `Model/Mbed.lean`
  (semaphores, event flags, event queue), and that one of their operations, or one call of the MAC with the flags raised
  during it, is one step.

### Modelling conventions

* C integers are `Nat` with explicit reduction (`u8`, `u16`, `u32`) at each place where the C type could
  wrap; bytes in buffers are `UInt8`.  `int32_t`/`int16_t`/`int8_t` are `Int`.
* The compile-time configuration is a parameter: L2 version (1.0.3, 1.0.4, 1.1) is a field of `Cfg`; all four regions
  are enabled; the optional features have their defaults (device time, link check, TX param setup and
  ABP enabled; test mode, static RX buffer and class B options disabled).  `LDL_DISABLE_SF12` and `LDL_ENABLE_OTAA_DITHER` are
  fields of `Cfg` (`noSf12`, `dither`), so every theorem about the MAC covers builds with and without them.  `LDL_ASSERT` and
  `LDL_PEDANTIC` are compiled out, as in the default build.
* The radio, clock, random source and battery callback are the environment: each API call takes an `Env`
  with the values these callbacks return during that call.  The clock is read twice in a call, with any
  time (`Env.took`) in between: first to find out what is to be done (bands, interrupt, timers), then to do it (timers set,
  anchor of the device time, times at which the radio is told to send or listen).  Simplification: in C each
  `self->ticks` is a reading of its own, so the readings within either group can differ too.
* The application callback is modelled as a list of events returned by each call, and each radio driver
  call is an event in the same list, so relative order is visible.  The application calling back into the library from
  inside a callback is not modelled.
* Memory: buffers are lists; an out-of-bounds access is a distinct outcome or is shown not to happen.
* `ldl_mac.c` is modelled against the software security module `ldl_sm.c` over an arbitrary block cipher
  `E` (a field of `Cfg`), so all MAC theorems hold for AES and for any other cipher.  `ldl_aes.c` is
  modelled and proved separately.

* Arrays of the C structures are functions `Nat → _` updated with `upd`; the bounds of each access are the
  subject of lemmas where they matter (channels, bands, key slots).
* The receive buffer: `read_buffer` stores the packet, at most 255 bytes, at the start of a 255 byte buffer whose
  old contents (`Env.stale`) are arbitrary.  So every decoding theorem holds for any garbage behind the packet.
* Loops that only search (`selectChannel`, `rateSettingIsValid`, the MTU loop) are written with list operations over
  `List.range`; loops with state are recursive functions or folds.
* `LDL_MAC_init` runs `forgetNetwork` on a zeroed session before it sets the region.  The region it sees is the
  enumerator with value 0, i.e. the first region that is built in: `Cfg.firstRegion`.
* The rejoin request is built by code that no API function reaches in this version; the operation `rejoining`
  exists in the model and is shown unreachable where it matters (`opAllowed`).

### Which code is modelled

| C file | Modelled | Not modelled |
| --- | --- | --- |
| `src/ldl_stream.c` | all functions | |
| `src/ldl_frame.c` | all functions | |
| `src/ldl_mac_commands.c` | all functions | debug names |
| `src/ldl_aes.c`, `ldl_cmac.c`, `ldl_ctr.c` | all functions, statement by statement | |
| `src/ldl_sm.c` | all functions | |
| `src/ldl_ops.c` | all functions, also with `LDL_ENABLE_ERRATA_A1` (C100) | |
| `src/ldl_region.c` | all functions for EU868, US915, AU915, EU433 | debug names |
| `src/ldl_radio.c` | air time, bandwidth table | dispatch to drivers (events of the model) |
| `src/ldl_mac.c` | everything reachable from the API below | debug output, `LDL_MAC_entropy` quality of randomness, class B (its commands are in C106) and test mode options (disabled by default) |
| `src/ldl_sx127x.c` | all functions, as the sequence of bus operations they issue; the debug build (C98) | text of debug output |
| `src/ldl_sx126x.c` | all functions, as the sequence of bus operations they issue, with accesses failing at any point | debug output |
| `wrappers/mbed/mac.cpp` | storage (`app_handler`, `start`), the calls of the MAC | clock, random source, critical sections (environment) |
| `wrappers/mbed/device.cpp`, `_device.h` | all methods, the worker, timer and interrupt, as an interleaving of threads | callbacks to the application, sleep manager, debug output |
| `wrappers/mbed/spi_radio.cpp` | access to the bus (`read`, `write`, wait for the busy line), any number of radios | frequency and mode of the bus, reset line |
| `wrappers/mbed/wl55.cpp` | `get_prescale`, `write_spi`, `read_spi`, `enable_irq`, `disable_irq`, `_handle_irq`, `chip_set_mode` | registers |
| `wrappers/mbed/sx126x.cpp` | interrupt handler, reset line | rest of the constructor |
| `wrappers/mbed/sx127x.cpp` | interrupt handlers, reset line | rest of the constructor |
| `wrappers/mbed/mbed_ldl_port.cpp` | all functions (C99) | the mutex |
| `wrappers/mbed/` other files, `wrappers/ruby` | no | language bindings |

The API of the model (`Call` in `Model/Data.lean`): entropy, otaa, abp, confirmedData/unconfirmedData, forget,
cancel, process, setRate, setPower, setADR, setMaxDCycle, addChannel, maskChannel, unmaskChannel, radioEvent; and as
functions of a state: ready, mtu, ticksUntilNextEvent, getters.

### What executions are

* `Spec.Reachable cfg m`: `m` results from `LDL_MAC_init` with any region and any argument (a restored session must be
  within the ranges documented by `Spec.SessionOk`; identifiers and keys have their length, `ArgOk`) and any finite
  sequence of calls, each with an arbitrary environment.  A call must meet its documented precondition `Call.WF`.
  Radio interrupts are calls like the others.  Interrupts during a call are added by `Spec.ReachableI`
  (`Spec/Interrupt.lean`), which has no further states (`c91_reachable`): for that, `Call` has an interrupt that
  is too late (`lateEvent`).
* `Spec.Life` (`Spec/Restart.lean`): executions with power loss after any event of any call, and restart with what the
  application stored: the last session, the last DevNonce and the last JoinNonce it was given.
* The clock is an unbounded tick count of which the device sees the low 32 bits (`Env.ticks`).

### Specifications

Each file of `Spec/` is written from the standard or from the English property, and mentions the model only for the
types of API calls, events and (where a property is about stored parameters) the fields of the session.

| File | What it says |
| --- | --- |
| `LoRaWAN`, `Wire` | frame layout, parser for uplinks, layout of downlinks |
| `Aes`, `Crypto` | FIPS-197 with field arithmetic, RFC 4493, CTR, key derivation of LoRaWAN 1.0 and 1.1 |
| `Server` | a network server: which uplink it accepts, which downlinks it may send |
| `MacCommands`, `Commands`, `Answers` | grammar of MAC commands, what the device makes of each, the answers owed |
| `Standard` | what the standard requires of each MAC command: checks, effect, answer |
| `Regional`, `Channel`, `CFList`, `Defaults` | data rates, channels, bands, defaults, channel lists |
| `AirTime`, `Duty`, `Backoff` | Semtech air time formula, duty cycle accounting, join back-off |
| `Join`, `Session`, `Restart`, `Trace` | nonces, reachable states, lives with crashes, frames sent in a trace |
| `Adr`, `Windows` | closed form of the ADR back-off; receive windows |
| `RadioProtocol`, `LoRaRate` | the order in which the radio interface may be used; which settings are usable |
| `Sx127xChip` | the SX1272/SX1276 as a machine: registers, FIFO, modes, what it transmits and listens for; from the data sheets |
| `RadioDriver`, `Sx127xLoop` | what a LoRaWAN transmission and receive window are; driver and chip over a history of the MAC |
| `Sx126xChip`, `Sx126xLoop` | the same for the SX1261, SX1262 and WL55, with accesses that may fail |
| `Mbed` | lives of a device with the storage of the mbed wrapper; what each method of `Device` stands for, what one thread may see of it, and what it is owed by a blocking method; executions as interleavings |
| `Spi` | transactions on a SPI bus, what a chip sees of it |
| `Interrupt` | histories with interrupts during calls, and the same calls one after the other |
| `Oscillator` | the oscillator register of the SX127x and the clock the chip runs from |
| `Reentry` | requests made in callbacks, and the same requests made after the processing call |
| `Irq`, `Irq127` | interrupt lines of the chips as the data sheets have them, interrupt controller, executions with interrupts |
| `Reset` | the level at which each chip is held in reset; line and driver over a history of the MAC |
| `Dwell` | the 400 ms limit, and when it is in force in AU915 |
| `Rest` | processing repeated at one time, and timers at the edge of the clock |
| `SecondWindow` | what it is to be through with a transmission, and to listen in the second window |
| `Debug127` | the debug build of the SX127x driver and the chip over a history of the MAC; what a log shows |
| `TraceLine` | what a line of debug output should say |
| `Errata` | block and encryption of FOpts after the errata to LoRaWAN 1.1 |
| `Conversation` | the session a network makes of a join request and its answer, what it accepts and may send in it |
| `Polling` | calls that go unnoticed, two devices in the same state |
| `NoSf12` | nothing transmitted with spreading factor 12, channels with room for a data rate above 0 |
| `Dither` | the interval of the delay of join requests, in seconds and ticks; how many random values give a delay |
| `WlSpi` | a bus with no byte left over, a radio that answers in time |
| `ClassB` | bytes of the class B commands |

### Not modelled

The text of debug output, stack usage, and of the mbed C++ wrapper what the table above does not name.  Calls from inside a callback are modelled for `LDL_MAC_process` and `LDL_MAC_otaa`
(`Model/Reentry.lean`, C93) and excluded elsewhere.  The clock may advance during a call (`Env.took`): it is read as
`now` at the start and as `now + took` after that.

## Plan by property

| Property | What is modelled | How it is proved |
| --- | --- | --- |
| C01 | `ldl_stream.c` as a record (bytes, size, pos, error), operations as an inductive type | invariant by induction over operation lists.  A negative relative seek moves the cursor forward past the end (`seekCur` casts the negative offset to `uint8_t`): negation proved with a witness, partial theorem for the operations the library performs (non-negative seeks) |
| C02 | put/get pairs | symbolic execution and little-endian arithmetic lemmas |
| C03 | `LDL_Frame_putData` over the stream model | refinement to a list-concatenation spec |
| C04 | spec parser in `Spec/LoRaWAN.lean` | round trip |
| C05 | `LDL_Frame_putJoinRequest` | refinement and round trip |
| C06 | `LDL_Frame_decode` | case analysis; the C code accepts frames whose option length overruns the frame (`seekCur` failure ignored): negation with witness; exact characterisation and partial theorem for the others |
| C07 | `LDL_Frame_decode` | case analysis on length |
| C08 | `LDL_MAC_getDownCommand` loop | fuel-free recursion on the remaining bytes, round trip with a spec encoder |
| C09 | `LDL_MAC_put*`, `sizeofCommandUp`, answer serialisation of `externalDataCommand` | finite case analysis lifted by lemma |
| C10 | `ldl_aes.c` statement by statement | S-box table checked against the GF(2^8) definition; round structure proved equal to a FIPS-197 spec for all states and keys |
| C11 | `ldl_ctr.c` | induction over blocks |
| C12 | `ldl_cmac.c` with its 8-bit size counter | refinement to RFC 4493; total length 256 wraps the counter: negation with witness; partial for all other lengths |
| C13 | `initA`, `initB` | injectivity of little-endian encodings |
| C14 | `LDL_OPS_deriveKeys`, `deriveJoinKeys`, `LDL_MAC_init` | equality with spec derivation; restore |
| C15 | `LDL_OPS_receiveFrame`, `processRX` | inversion theorem |
| C16 | same, plus a spec server | round trip.  Counter derivation is wrong once the high half is non-zero; partial |
| C17 | `externalDataCommand`, `prepareData`, `micDataFrame`, spec server | end-to-end round trip; false for counters >= 65536 (cipher uses 16-bit counter) and for 244-byte frames (C12): negations, partial otherwise |
| C18 | receive path over a history | false: a replayed frame is accepted again.  Negation by witness; partial |
| C19 | receive path, init | invariant over executions |
| C20-C22 | MAC transition system, executions with crash and restart | inductive invariants over executions |
| C23 | same | false after 65536 uplinks: negation; partial below |
| C24, C25 | `externalDataCommand`, `otaa`, `abp`, `entropy` | decision logic |
| C26 | MAC transition system | counting invariant over executions |
| C27 | MAC transition system | false (cancel leaves no timer armed; RX2 timer consumed during RX1): negations; partial invariant |
| C28 | `LDL_MAC_cancel` | decision logic |
| C29 | `LDL_MAC_cancel` | false (state is overwritten before it is tested): negation; partial |
| C30, C31 | `selectChannel` and helpers | loop lemma over channel indices |
| C32 | `processBands`, `registerTime` | inductive invariant with ghost totals |
| C33 | same | false after an idle (parked) period: negation; partial when time is being tracked |
| C34 | `getOTAAOffTime`, `updateDownCounter` | arithmetic; invariant on the clock of a join, of any length; negations after idling and after the first day |
| C35 | timer functions | modular arithmetic |
| C36 | input functions | induction over operation lists |
| C37 | `processTX`, `processWait` | arithmetic, phase by phase, for every lateness: both windows, the second alone, the second at once; late processing of the wait timer opens the window early by the lag: negation; partial |
| C38 | `extraSymbols`, `symbolPeriod` | arithmetic |
| C39 | region tables | full table check by kernel computation lifted to a universal statement; out-of-table offsets: negation |
| C40 | `LDL_Radio_getAirTime` | arithmetic vs rational formula |
| C41 | `setRate`, `setPower` | decision logic |
| C42, C43 | `LDL_MAC_mtu`, `externalDataCommand` | false in corner cases: negations; partial |
| C44, C45 | `processCommands` | invariants over the command list; C45 false in 16-channel regions: negation; partial for 72-channel regions |
| C46, C47 | MAC transition system | invariants over executions |
| C48 | `adaptRate` iterated | closed form by invariant; counter saturation stops the back-off early: negation; partial |
| C49 | `processCommands`, `putDevStatusAns` | arithmetic |
| C50, C51 | `LDL_MAC_init`, `LDL_MAC_forget` | decision logic |
| C52 | `processStartRadioForTX`, `getTXPower` | table check |
| C53, C54 | `processCFList`, `setChannel` | case analysis |
| C55 | device time arithmetic | arithmetic |
| C56 | `selectJoinChannelAndRate`, region tables | arithmetic on trials |
| C57 | `validateFreq`, `getBand` | interval arithmetic |
| C58 | `externalDataCommand`, `processRX` | invariant |
| C59 | `LDL_MAC_ready` | relation of two searches over channels |
| C60 | MAC transition system | inductive invariant |
| C61 | `processCommands` | exact effect of any list of commands (`obey`): induction over the command list; then `obey` against the standard (`effect`, `reply`), command by command.  Five departures; partial |
| C62 | `LDL_OPS_receiveFrame`, `processRX`, `Spec/Server.lean` | end-to-end: a join accept of the specified server is accepted |
| C63 | `joinAccepted` | decision logic; reserved bits of the delay octet are not ignored: negation; partial |
| C64 | radio events of the MAC model, `LDL_SX127X_setMode` | protocol automaton, invariant over executions; driver total on accepted histories |
| C65-C68 | `ldl_sx127x.c` as bus operations on a chip with arbitrary registers | simulation: invariant between driver, chip and protocol phase, per call symbolic execution; C67 false below 0 dBm and for 18, 19 dBm: negation; partial |
| C69 | `LDL_SX127X_readBuffer` on the chip's FIFO | symbolic execution |
| C70 | metadata arithmetic | arithmetic; negative SNR is reported as positive: negation; partial |
| C71 | `LDL_SX127X_getStatus`, `readEntropy` | invariant (flags cleared, mask), induction over samples |
| C72, C75 | `ldl_sx126x.c` as bus operations of which any may fail | weak invariant (driver mode, chip not in reset); a transmission starts only with the last access of a sequence, so all before it succeeded |
| C73, C74, C76, C79 | the same with no access failing | simulation: invariant between driver, chip and protocol phase |
| C77, C78, C80 | `readBuffer`, packet status, `SetPower` | symbolic execution; all values of a byte; case analysis.  Failing second access, RSSI and low powers: negations; partial |
| C81 | `MAC::app_handler`, `MAC::start` of the mbed wrapper | simulation: a life with the wrapper's storage is a `Spec.Life` while no DevNonce report exceeds 16 bits.  Afterwards the nonces start over: negation; partial |
| C82 | `Device`: threads, worker, queue, semaphores as an interleaving | inductive invariant over all interleavings (one holder of the queue semaphore; where its request is), replay of the log.  `cancel` forgets: negation; partial |
| C83 | the same | ranking function of the worker, using C85, restarted each time the clock moves, between or during steps; no deadlock from the invariant.  Not while a timer is at the edge of the clock: negation; partial |
| C84 | the same, event flags | inductive invariant relating the log, the operation of the MAC (C26), the flags and the thread.  One thread with blocking methods; negations for several and for timeouts; partial |
| C85 | `LDL_MAC_process`, `LDL_MAC_ticksUntilNextEvent` | ranking function on state and timers.  At the edge of the clock it spins for a tick: negation; partial |
| C86 | `processCommands` | from C44: the masks, checks and effect of a block against the standard.  Six departures; partial |
| C87 | `SPIRadio::read`, `write` of the mbed wrapper, for any number of radios that share a bus; `get_prescale` of the WL55 | inductive invariant over all interleavings: the wires show complete transactions and a part of that of the holder of the bus.  The time spent waiting for the bus counts: negation; partial |
| C88 | `downlinkMissing`, `shouldRetry`, `registerTime` | inductive invariant: while a data frame waits for its transmission the off-time owed is low.  In EU868 only some band is checked, not that of the frame: negation; partial |
| C89 | `downlinkMissing`, `retryData`, `processWait`, `startRadioForTX` | inductive invariant: while a confirmed frame waits, the timer is due 2^k s after the k-th transmission at the earliest; the exact time by running the windows machinery of C37 over the wait.  A wait of 2^31 ticks or more is cut short: negation; partial |
| C90 | SX126x driver and chip as for C72-C80, with the accesses that reached the chip recorded beside each event | inductive invariant over histories with failing accesses: the number of calibrations since the last cold start is what the driver believes |
| C91 | `LDL_MAC_process` with interrupts between its two critical sections (`Model/Interrupt.lean`) | the handlers commute with recording an interrupt; case analysis on latch and state; induction on histories |
| C92 | SX127x driver and chip as for C64-C71; RegTcxo in `Spec/Oscillator.lean` | inductive invariant over histories: only a reset and the start from sleep write the register |
| C93 | `LDL_MAC_process` with what the application does in each callback as a parameter (`Model/Reentry.lean`) | requests are refused while `op` is set, so each place with `op` set equals the model without callbacks; at the others requests commute with what the call still does, because they do not read it.  In CHANNEL_READY of an idle device the call equals call, requests, call: a second call at the same time finds the counters unchanged and the operation due.  Cancelling in a callback: negation with a witness |
| C94 | requests and their transmissions as for C43 and C56, the time on air as for C40 | data: the size accepted for the rate set and the rate used (`sent_size`), then arithmetic over the rates of the region; joins: induction over the calls, the rate and length of each request; AU915 data: negation |
| C95 | the interrupt handlers of the mbed wrapper, the interrupt controller of the STM32WL55 (level, pending, enabled) and an edge triggered pin, over the driver and chip of C73; two edge triggered pins over the driver and chip of C65 (SX1272, SX1276); interrupts are taken at any point between two accesses but before the next radio call | invariant over histories: calls made plus one if due = operations ended; nothing is pending at the chip while an operation is set up, the interrupt is off while one that has ended is torn down |
| C96 | the pin that drives the reset line, over the calls of both drivers on the chip interface | induction over histories that follow the protocol of C64: the line is asserted in phase reset only, the next call on the chip releases it. False on the SX1276: negation; partial.  (C64-C78 take it that the chip interface honours the request for reset, which this justifies for the mbed wrapper on all chips but the SX1276.) |
| C97 | MAC transition system | induction over the calls after a transmission: as long as it has not listened in the second window, read a packet or reset the radio, the device is in one of six states and has reported nothing. False when a foreign packet is received: negation for every such packet and device; partial |
| C98 | the SX127x driver with `LDL_ENABLE_RADIO_DEBUG`: the registers it reads in addition, and its log | the additional calls read registers other than the FIFO, which leave the chip as it is; induction over histories and over the accesses of a call. The log is too short for a transmission: negation; partial |
| C99 | `mbed_ldl_port.cpp`, with `snprintf` as the C standard has it | invariant: the buffer holds what was said, terminated. Writes outside of the buffer are a distinct outcome; exact condition for them by induction over the texts; negations for long lines and for bytes of two digits; partial |
| C100 | `ldl_ops.c` with `LDL_ENABLE_ERRATA_A1` (`Model/Errata`): both places that build the block of FOpts | both functions as the default build with another block, by the lemmas of C16 and C17; blocks by injectivity of their encoding. The block is not the one of the errata (Spec/Errata, from the errata, whose text is not in the repository): negation for all addresses and counters, and a run with AES |
| C101 | nothing new; the conversation of device and network over a whole life with crashes | invariant on storage (a stored joined session is the network's for the last join request) and on the history (every data frame was acceptable when sent), from the effect of a step (C01, C02), the keys of a session (C14), the frame in the buffer (C17) and delivery (C16). Partial: uplink and downlink counters from 65536 on and frames of 244 bytes (C16, C17), acknowledgements in 1.1 sessions (C17) |
| C102 | nothing new; `LDL_MAC_process` called more often than asked | counting off-time in two steps is counting it in one (the remainder is kept, the tick lost at a wrap is lost once); nothing under `LDL_MAC_process` looks at the timer of the off-time (congruence of every function it calls); induction over the further calls, then over any later history. Partial: calls that report a ready channel early, or with which counting begins or ends, are excepted, with witnesses |
| C103 | the option `LDL_DISABLE_SF12` in the session's first data rate, ADR back-off and the rates of join requests | invariant over all calls: the data rate stays above 0 (the ADR steps of C48, the rate of a join accept), and what is selected for transmission is not SF12 (tables of rates, ranges of channels); induction over any history from a new device. Partial: data rate 0 set by the application, asked for by the network or forced by a channel is used, and the second window of EU868 is received at SF12, with witnesses |
| C104 | the delay of a join request, the option `LDL_ENABLE_OTAA_DITHER` | the phases of C89 (a device waiting to transmit does so when due and not before), the timer of C35, and counting residues below 2^32. Partial: an interval of 2^31 ticks or more does not fit a timer, and one of 2^32 is computed wrong, with witnesses |
| C105 | `write_spi` and `read_spi` of the STM32WL port, over a peripheral with any response times | induction over the bytes, the polling loop by induction over its count. Partial: if every byte comes within the count, with a witness otherwise |
| C106 | encoders, decoder and table of sizes of a build with `LDL_ENABLE_CLASS_B` (`Model/ClassB.lean`) | as C08 and C09: chunks written, cases of the reader, induction over the list of commands; class A by simulation with the reader of C08. Partial: the size of one answer is wrong |
| C107 | nothing new; restarts of `Spec/Restart` | every call reports the session it leaves behind, after which it does not change, or leaves it as it was (cases of the state machine); induction over lives with power losses. `LDL_MAC_abp` does not: negation; partial |
| C108 | nothing new; `Spec/Ack` says how the two flags change in one call | per call over the cases of the state machine; induction over the calls between; the frame sent is the one prepared by the request (C46), its FCtrl read bit by bit. The flag is not stored: negation; partial |
| C109 | nothing new; lives of `Spec/Join`, sessions of `Spec/Conversation` | the keys are those of the last join request (C101), its DevNonce is greater than all before (C20), the derivation block contains it, the cipher is one-to-one (proved of AES from its inverse). The same by JOIN_COMPLETE: the stored session is that of the last JOIN_COMPLETE (induction over lives), whose nonce is greater than all before (C19; in 1.0.3 an assumption on the network). Activation by personalisation: negation; partial |
| C110 | nothing new; lives of `Spec/Join`, server of `Spec/Server` | a life may be cut after every event (power loss), so that C22 and C23 hold at every point of it; the uplinks of a session are those since its join request (invariant over events); two uplinks have a join request between them and other keys (as C109), or are of one session and have other counters. Partial: as C109 and C23 |
| C111 | nothing new; `Spec/Order` is an automaton with four states over the events of a life | invariant over the events of each call: the automaton has not refused, it is in its last state exactly when a joined session is stored, and in the second when the device listens for the answer to a join request; induction over lives |
| C112 | nothing new; `HeardFromNetwork` lists the events, `authenticOctets` and `netSession` are those of C15 and C101 | every event of a call has a cause (C15's table of causes); these events need an accepted data frame, which is authentic for the session held, and that session is the network's by C101; port and payload by the refinement of reception to `openDown` (C16). Partial: packets of 244 bytes, 16 bit counters, FOpts behind the end (C06) |

## Where the code does not have the property

Each entry is proved as a theorem with a concrete witness, next to the strongest statement that holds.

| Property | What happens | Theorem |
| --- | --- | --- |
| C01 | a negative relative seek moves forward past the end of the buffer | `c01_negative_seek_escapes` |
| C06 | a frame whose option length exceeds the frame is accepted | `c06_overrun_is_accepted` |
| C08 | ForceRejoinReq is read from the wrong bits | `c08_force_rejoin_misread` |
| C12, C15, C17 | the CMAC size counter has 8 bits: the tag over 256 bytes (frames of 244 bytes) is wrong | `c12_wrong_at_256`, `c17_length_244` |
| C14 | keys of a personalised (ABP) device are replaced by derived ones on restart | `c14_abp_lost` |
| C16, C17, C23 | frame counters from 65536 on: downlinks refused, uplinks undecipherable, key stream reused | `c16_counter_high`, `c17_counter_high`, `c23_reused` |
| C17 | (1.1) the MIC of an acknowledging uplink always uses ConfFCnt 0 | `c17_conf_counter` |
| C18 | a replayed downlink is accepted again | `c18_replay_is_delivered`, `c18_replay_witness` |
| C27 | cancelling, or RX2 falling due during RX1, stops the device for good | `c27_cancel_stuck`, `c27_late_stuck` |
| C29, C32, C60 | a cancelled transmission is not charged to the duty cycle | `c29_witness`, `c32_cancelled` |
| C30, C54 | inverted channel rate ranges are accepted | `c30_inverted_range`, `c54_inverted` |
| C33, C34 | after an idle period the idle time is taken off new off-time | `c33_after_idle`, `c34_after_idle`, `c34_after_day` |
| C35, C55 | an interval across the wrap of the clock is one tick short | `c35_expires`, `c55_wrap` |
| C37 | a late start-up of the radio is compensated twice; the window can be over before the downlink | `c37_late_startup` |
| C37 | the window opens late by the time `process` takes between its first look at the clock and setting the timers; 12 ms are enough to miss a downlink at SF7 | `c37_slow_processing` |
| C55 | the device time is early by the time `process` takes between its first look at the clock and the end of the transmission being recorded | `c55_anchor` |
| C37 | the window opens a tick late when the clock wraps between the end of the transmission and its processing | `WindowDemo.opened_wrap` |
| C37 | a device that is too late for both windows opens the second anyway, after its time | `WindowDemo.opened_missed` |
| C38 | low tick rates divide by zero | `c38_symbol_zero` |
| C39 | reserved RX1 offsets are acknowledged and give a wrong data rate | `c39_reserved_offset_wrong` |
| C40 | air time is computed for an implicit header and so too short | `c40_too_short` |
| C42 | the reported payload size can be too large or too small in four situations | `c42_channels`, `c42_tx_param_setup`, `c42_requests`, `c42_many_commands` |
| C43 | a frame can exceed the limit of the rate it is sent at | `c43_channel_limit`, `c43_mac_priority` |
| C44, C45 | a truncated LinkADRReq block changes the mask without an answer; an all-zero mask is acknowledged | `c44_truncated`, `c45_truncated`, `c45_all_disabled` |
| C48 | the back-off stops for good after 255 unanswered uplinks and outlives the session | `c48_stuck`, `c48_outlives_session` |
| C50 | defaults are those of the first region built in | `c50_defaults_wrong` |
| C51 | forgetting when not joined leaves the channel plan | `c51_not_joined` |
| C54 | default channels can be redefined | `c54_default_redefined` |
| C56 | with all channels masked a join request is sent with stale settings | `c56_masked` |
| C57 | three gaps between EU868 sub-bands are accepted as frequencies without a band | `c57_gap_wrong` |
| C63 | reserved bits of the receive delay are not ignored | `c63_delay_reserved` |
| C67 | below 0 dBm the power is rounded up by up to 1 dB; 18 and 19 dBm are sent as 17 dBm | `c67_rounds_up`, `c67_gap` |
| C70 | SX127x: a negative SNR is reported as positive (the register is taken as unsigned) | `c70_negative_snr` |
| C73, C79 | SX126x: failures while the chip is made ready are ignored: it transmits with the TCXO off, or a stale interrupt ends RX2 at once (both outside the condition of the properties) | `c73_tcxo_off`, `c79_stale` |
| C76 | SX126x: between windows the accessory lines stay switched to transmission or reception | `c76_lines_left` |
| C77 | SX126x: if only the packet status cannot be read, the full length is returned although nothing was read | `c77_failing` |
| C78 | SX126x: the RSSI is wrong for all but three of 256 values | `c78_rssi_wrong` |
| C80 | SX126x: powers up to 20 dBm are emitted 2 to 8 dB too weak (SX1262), up to 10 dBm 3 dB too weak (SX1261) | `c80_weak` |
| C81 | mbed: the wrapper stores the exhausted DevNonce 65536 in 16 bits, so after a restart DevNonces start over with 0 | `c81_nonces_start_over` |
| C82 | mbed: `Device::cancel` calls `forget`: it drops the session | `c82_cancel_drops_session` |
| C84 | mbed: after `otaa` has timed out, `entropy` returns CANCELLED while its operation goes on | `c84_stale_flag` |
| C84 | mbed: an operation started by one thread clears the completion another thread has not yet noticed, which waits on | `c84_lost_completion` |
| C84 | mbed: a data method called while another is in progress returns TIMEOUT at once | `c84_not_waiting` |
| C84 | mbed: a data method without a channel waits for one and then returns NOCHANNEL without sending | `c84_no_channel` |
| C85 | a timer overdue by exactly 2^31 - 1 ticks is reported as due but not processed: for one tick a loop as in the wrapper spins | `c85_edge` |
| C61 | a receive delay of 0, which means one second, is taken as 0 | `c61_delay_zero` |
| C61 | RXParamSetupReq is acknowledged and applied without any check | `c61_rx_param_unchecked` |
| C61 | NewChannelReq with frequency 0 is refused and does not remove the channel | `c61_channel_not_removed` |
| C61 | DlChannelReq is acknowledged, also for channels that are not defined, and never applied | `c61_dl_channel` |
| C61 | several requests of one kind get one answer, that of the last | `c61_one_answer` |
| C86 | US915, AU915: ChMaskCntl 5 does nothing, 6 and 7 do not apply the mask to the 500 kHz channels; both acknowledged | `c86_fixed_masks` |
| C86 | masks that enable channels that are not defined, and rates no enabled channel allows, are accepted | `c86_undefined_channel`, `c86_rate_without_channel` |
| C86 | more than three repetitions are acknowledged and cut to three | `c86_repetitions_cut` |
| C86 | a block of LinkADRReq gets one answer; a second block in the downlink is ignored | `c86_one_answer`, `c86_second_block` |
| C83 | mbed: while a timer is overdue by exactly 2^31 - 1 ticks, requests are not answered | `c83_edge` |
| C87 | mbed: the second after which a busy radio is given up is counted from before the bus is locked: a radio may be given up at once | `c87_impatient` |
| C87 | mbed, WL55: a configured bus frequency below a 256th of the clock reads beyond the table of prescalers | `c87_wl55_overrun` |
| C88 | EU868: a frame is repeated while more than half an hour of off-time is owed in its band, because a channel in another band passes the check (`downlinkMissingHandler` discards the channel it selected) | `c88_own_band` |
| C89 | a wait that does not fit a timer is cut short: at 1 MHz the 13th transmission of a confirmed frame follows the 12th after 1955 s instead of 4096 s | `c89_overflow` |
| C93 | cancelling in the callback of a completion leaves the device idle and the radio in reset; the next frame is given to a radio that is not ready | `c93_cancel_fails` |
| C93 | entropy requested in the callback of a join request is accepted and lost | `c93_entropy_lost` |
| C94 | MAC commands sent in place of the payload at US915 data rate 0 take more than 400 ms | `c94_us_commands` |
| C94 | in AU915 the uplink dwell time limit does not reach data frames: the rate computed from it is overwritten (src/ldl_mac.c:1726, 1728); every frame at data rate 0 or 1 on a 125 kHz channel exceeds it | `c94_au_ignored`, `c94_au_default` |
| C95 | WL55: if clearing the interrupts after RX1 fails, the handler is called as soon as RX2 starts and the interrupt is off when RX2 ends | `c95_stale` |
| C96 | mbed: the wrapper drives the reset line of the SX1276 high, whose reset is active low: it is never reset | `c96_sx1276_never`, `c96_sx1276_not` |
| C97 | a packet in the first window that is not a downlink, such as the uplink of another device, closes the second: the device is through with the transmission at once | `c97_stray`, `c97_forged`, `SecondDemo.c97_not` |
| C98 | the log of the SX127x debug build has room for 20 accesses; a transmission or receive window makes more, the last of which starts the radio: it is never shown, and the overflow is not reported | `c98_log_not` |
| C99 | mbed: after more than 1024 characters of a line, the next part of it is written outside of the buffer (`sizeof(buffer)-pos` wraps) | `c99_overrun`, `c99_outside` |
| C99 | mbed: `my_trace_hex` prints bytes from 0x10 on with three digits | `c99_hex_not` |
| C102 | the time until a channel is ready is rounded up to whole seconds: a device called before the time told may report it, and accept a request, up to a second earlier | `c102_rounded` |
| C102 | a join asked for while the radio is reset begins its day with the next call: a further call before the reset is over changes how much of the day is left | `c102_started` |
| C103 | a build with `LDL_DISABLE_SF12` ("prevent SF12 data rates being used") accepts data rate 0 from `LDL_MAC_setRate` and from LinkADRReq and transmits at SF12; so it does on a channel whose highest rate is 0 | `c103_ordered` |
| C103 | the same build opens the second receive window of EU868 at SF12 | `c103_window` |
| C104 | `otaaDither` is documented as a number of ticks (include/ldl_mac.h:626); it is a number of seconds | `c104_ticks` |
| C104 | the interval in ticks is computed in 32 bits: with a clock of 65536 Hz and 65536 s it is 0, and the code divides by it; with 1 MHz and 5400 s it is cut to less than 1140 s | `c104_undefined`, `c104_cut` |
| C105 | if a byte comes later than the polling loop waits, `chip_read` returns true with a stale byte, and the bytes that follow are shifted | `WlSpi.c105_late` |
| C106 | the answer to PingSlotChannelReq is accounted for with 5 bytes, the size of the request, while it has 2 | `ClassB.c106_size` |
| C107 | `LDL_MAC_abp` changes the session and does not report it: a device that loses power before its first uplink starts without a network | `c107_abp_lost` |
| C108 | the acknowledgement owed is not part of the session: after a power loss the confirmed downlink is never acknowledged, though the device is in the same network with the same counters. In 1.1 sessions the acknowledging uplink has a wrong MIC (C17) | `c108_lost`, `c17_conf_counter` |
| C109 | a device personalised (ABP) again after `LDL_MAC_forget` has the same keys and counters from zero: the same key stream encrypts two messages. In 1.0.3 the DevNonce is random and the JoinNonce is not compared: new keys there depend on the network not using a JoinNonce twice (hypothesis of `c109_joined_partial`) | `c109_abp_reused` |
| C110 | with ABP, and with counters from 65536 on, see C109 and C23 | `c109_abp_reused`, `c23_reused` |
| C100 | with `LDL_ENABLE_ERRATA_A1`, `initA` gets the octet for the counter as a little-endian 32 bit number and so puts it second instead of fifth; for downlinks the last octet is 0 instead of 1.  Options are garbled in both directions with a server that follows the errata | `c100_block_not`, `c100_not` |

## Seeded edits

`seeded/LOG.jsonl` has one line for each wrong program tried: the definition edited, the edit, the claim it breaks,
the theorems that failed, and the theorems that were tightened because of it.
