# Design

Subject: `rhargreaves/mega-drive-midi-interface` (C for the Sega Mega Drive, m68k GCC), source in `/repo`.
The code is modelled by hand in Lean 4, function by function; every model definition cites the C file and
lines. Nothing in `/repo` is executed.

## 1. Approach

* **Integers.** `u8`, `u16`, `s8`, `s16` values are `Nat`/`Int` with the C conversions written out
  (`u8 x = x % 256`, ...). `int` is 32 bit on the target; all `int` intermediate results in the modelled code
  are far below 2^31, so they are exact `Nat`/`Int` expressions. C `/` on ints truncates toward zero (`Int.tdiv`).
  CRC arithmetic uses `BitVec 16`.
* **Arrays.** Mutable arrays are total functions `Nat → α` updated with `upd`; every C access that could be out of
  bounds is accompanied by an explicit bounds test that yields the distinct outcome *undefined behaviour*
  (`ub` event / `none`), never an assumption.
* **Hardware.** YM2612, PSG, Z80 bus, PCM driver, UART, FIFO and SRAM are the environment. The model emits a trace
  of hardware events; the specification interprets the trace (e.g. "last value written to a register").
  Bit-level chip behaviour after the write is not modelled.
* **Concurrency.** Interrupt handler / main loop code is modelled as atomic load/store steps and theorems quantify
  over all interleavings (ring buffer, scheduler).
* **Data tables** (presets, percussion presets, PCM sample, startup sequence) are parameters, so theorems hold for
  all tables; the shipped tables are transcribed by script in `Model/Presets` and C72 shows that they meet the assumptions; frequency, tone, attenuation, total level and portamento tables are copied literally.
* **Negative results.** When the code violates a property, the negation is proved by a concrete witness that is
  evaluated by the kernel, and the strongest true variant is proved with the suffix `_partial`.

Layout: `Verif/Model/*` code model, `Verif/Spec/*` independent specifications, `Verif/Proofs/*` lemmas,
`Verif/Props/*` the claimed theorems (with non-vacuity examples).

## 2. Trusted base

* Lean 4.33 kernel; axioms used by the theorems: at most `propext`, `Quot.sound`, `Classical.choice`.
* The hand translation from C to Lean (per-definition citations allow review).
* The reading of C on m68k GCC: `int` 32 bit, `char` signed, big-endian, bit-fields unsigned, `enum` = int,
  conversion to narrower types wraps.
* Facts about code outside the repository (SGDK, mw-api), used by the models:
  * `Z80_getAndRequestBus` returns whether the 68000 had the bus before; loading the PCM driver and
    `SND_PCM_startPlay`/`stopPlay` end with the bus released; `YM2612_writeReg` does not touch the bus;
  * SGDK start-up silences the PSG;
  * an SRAM byte write is atomic and the SRAM is otherwise ideal;
  * aligned 16-bit loads and stores are atomic with respect to interrupts; `SYS_disableInts`/`enableInts` are
    modelled in `Model/Cart` only;
  * the Mega EverDrive mapper as described at the head of `Model/Cart`; SGDK clears static variables when the console is switched
    on and keeps them when its reset button is pressed;
  * `struct mw_reuse_payload` is 4 bytes of address, 2 bytes of port, then the payload; the radio completes only
    what it was asked to do, and calls back only from `mw_process`;
  * the joypad masks of `joy.h`;
  * `VDP_drawText` puts the characters of a string into consecutive cells of a row, `VDP_clearTextArea` blanks a rectangle,
    and the screen is blank after start-up;
  * MegaWiFi's UART scratch register is 0xA130CF; the external interrupt is taken once its mask, the VDP bit and the callback are
    set (`Model/Port`).

## 3. What is modelled

| Component | C source | Model |
|---|---|---|
| note stack | note_priority.c | `Model/NotePriority` |
| pitch arithmetic, glides | pitchcents.c, parts of midi.c | `Model/Pitch` |
| YM2612 driver | synth.c | `Model/Synth` |
| FM device, special mode, DAC, preset memory on top | midi_fm.c, midi_fm_sm.c, midi_dac.c, midi_fm_sram.c | `Model/MidiFm` |
| PSG device | midi_psg.c | `Model/Psg` |
| MIDI engine, SysEx transmitter | midi.c, midi_tx.c | `Model/Midi` |
| byte stream receiver, startup sequence | midi_rx.c, settings.c | `Model/MidiRx` |
| preset persistence, CRC | sram/*.c | `Model/Sram` |
| ring buffer (sequential / interleaved) | comm/ring_buf.c | `Model/RingBuf`, `Model/RingConc` |
| serial, source selection | comm/comm_serial.c, comm/serial.c, comm/comm.c | `Model/Serial`, `Model/Comm` |
| scheduler, log | scheduler.c, log.c | `Model/Scheduler`, `Model/Log` |
| network MIDI | comm/rtpmidi.c, comm/applemidi.c, comm/comm_megawifi.c | `Model/Rtp`, `Model/AppleMidi`, `Model/MegaWifi` |
| joypad demo | comm/comm_demo.c | `Model/Demo` |
| Everdrive | comm/comm_everdrive*.c, comm/everdrive*.c | `Model/Everdrive` |
| formatting, load meter | comm/ip_util.c, parts of ui.c | `Model/IpUtil`, `Model/UiLoad` |
| display | ui.c, ui_fm.c | `Model/Ui` |
| log under interrupts (small-step) | log.c, comm/comm_serial.c:33 | `Model/LogConc` |
| log texts | every `log_info`/`log_warn` call in src/ | `Model/LogText` |
| instrument bank | presets.c, pcm_sample.c (names only), envelopes.c | `Model/Presets` |
| start-up, cartridge detection | main.c, scheduler.c:76-92, sram.c:38-48, comm.c:44-70, `*_init` | `Model/Main` |
| cartridge mapper, LED, interrupt bits | sram/sram_ed_pro.c, sram/sram_ed_x7.c, sram/sram.c, comm/everdrive_led.c, mem.c, sys_wraps.c | `Model/Cart` |
| start-up conversation with the radio | comm/comm_megawifi.c:74-83, 94-195, comm/mw_uart.c | `Model/Radio` |
| `memcmp` | utils.c:18-28 | `Model/Utils` |
| main loop around receiver and engine | scheduler.c:35-74, midi_rx.c:51-61, comm/comm.c:96-104 | `Model/Session` |
| register accesses of the links, interrupts | mem.c, comm/serial.c, comm/comm_serial.c, comm/comm_everdrive*.c, comm/everdrive_led.c, comm/mw_uart.c, comm/comm.c | `Model/Port` |
| driver notifications | `parameterUpdatedCallback` in synth.c | `Model/Notify` |

Not modelled: VDP palettes, tiles and sprites (which picture is shown is state, its pixels are not), SGDK/mw-api internals,
the contents of res/ (sample data, pictures), waiting times of hardware registers (a wait is a step). The start-up
conversation with the radio has its own model (C76); in the other models its outcome is a parameter.

## 4. Plan per property

* **C01–C04 (receiver).** `read_message` as a function on byte lists returning the engine call and the remaining
  bytes (blocking `reader()` = list exhausted). C01: parse ∘ encode = id by induction on the message list.
  C02: induction on the tail. C03: engine-state equality. C04: violated – witness and the exact statement of what
  happens (`_partial`: real-time bytes between messages are transparent).
* **C05 (memory safety).** UB is an explicit outcome; prove an invariant-preservation theorem for every API call;
  violations (DAC pitch above the preset table, odd envelope payload) are exhibited as witnesses and excluded by
  explicit hypotheses in the `_partial` theorem.
* **C06.** Case analysis on the SysEx dispatcher.
* **C07.** Invariant over all API calls.
* **C08–C10 (allocator).** `findFreeChannel` postconditions for arbitrary states.
* **C11–C15, C17, C18 (note life cycle).** Model of midi_note_on/off over arbitrary state; C13 by a history
  invariant; C14, C15, C18 violated – witnesses plus partial theorems.
* **C16.** Refinement of the array stack to a list.
* **C19, C20.** Integer arithmetic; low-pitch wrap-around is a violation – witness and partial theorem with the
  exact safe range.
* **C21, C22, C23, C24.** Finite tables checked completely in the kernel and lifted to all arguments by lemmas.
* **C25, C26, C27 (PSG).** Cursor = (table, offset) with explicit out-of-bounds outcome; invariant "an END byte exists
  at or after the cursor"; termination measure = distance to END. C27 is an invariant; `midi_psg_reset` violates it.
* **C28, C29.** Chip registers = fold over the trace; invariant relating them to the shadow parameters;
  address injectivity by arithmetic.
* **C30, C40.** Frame theorems; violations exhibited.
* **C31, C32, C38.** State theorems over engine + driver; violations by caching exhibited.
* **C33, C34.** SRAM as a byte array, save/clear as lists of byte writes; crash = prefix of the list.
  CRC error detection by linearity over GF(2).
* **C35, C36, C37, C55, C57.** Direct theorems on SysEx / CC handlers for all states.
* **C39.** Reset postcondition; PSG part violated – witness, partial theorem.
* **C41.** Trace grammar theorem.
* **C42–C45.** FIFO refinement; interleaving semantics; arrival schedules.
* **C46, C47.** Queue refinement; interleaving with vsync (violated when vsync occurs inside handlers).
* **C48–C51.** Packet parsing / packing over byte lists; state machines over event lists.
* **C52–C54, C56.** Small state machines / arithmetic.
* **C60, C61.** End to end: from the messages to what the chips hold. Engine cache, driver cache and chip are related by
  invariants over all histories; the voice that was started is recognised by the key-on write (FM) or the held key (PSG).
* **C62–C68 (display).** Screen = function from cells to characters; engine and display step together, with arbitrary driver
  notifications (for C66, those `Model/Notify` derives). An effect relation says which cells each function may touch; an invariant ties the note column to
  the cached pitches and bounds every table index.
* **C69.** A text for every log call; lengths from the number of digits of each type's largest value. An invariant over engine and
  receiver gives the argument ranges for arbitrary bytes.
* **C70.** A call takes effect where it chooses its entry (or finds the log empty). Invariant: finishing the call in progress
  without interrupts gives the log of the effects so far. An interrupt's message commutes with writing or reading another
  entry; elsewhere it does not, and three witness schedules show what happens.
* **C71.** Invariant over performances: the set of keys down equals the set of (MIDI channel, pitch) of sounding voices, one voice
  each; note stacks are duplicate-free subsets of it, so a free voice exists below nine keys (counting) and a release never
  falls back to an older note.
* **C72.** Facts about the tables by kernel evaluation over all entries (and all volumes), carried to the chip by C60 and C26.
* **C73.** Start-up as a composition of the initialisations; the MegaWiFi one calls handlers any number of times. Consequences for
  the engine through the decomposition of histories into FM calls.
* **C74.** Hardware state machine of the mapper under the byte-wise save, clear and load loops; refinement of the ideal memory of
  C33 and C34, invariant over all histories of calls.

* **C75.** Sessions as event lists (bytes arrive, frame passes); simulation into engine histories by induction over the events;
  the engine's invariant holds under a weaker condition on arguments (`Op.Harmless`) than well-formedness.
* **C76.** The library's answers are free variables; case analysis over the refusals, then an invariant of the network model for
  the rest of the session.
* **C77.** Induction over the count; lexical order stated with a common prefix.
* **C78.** A relation between states (`Fade`): no note is started on the voice, an ended one was told to the PSG, and an idle one only
  wanes; every message is one, or leaves the voice sounding. Frames move a released channel on by a byte, and envelopes end.
* **C79.** A relation (`Samp`) through every engine function: the calls to the sample player, the DAC switch and the device of each
  voice are unchanged unless the voice that plays samples is concerned; then the note functions on that voice.
* **C80.** A small language of register accesses in which the hardware's answers and interrupts are an arbitrary list that may end
  anywhere; Hoare triples over the whole access history. Send and receive rules are stated over histories ("every use follows a
  look with the answer yes of its own") and turned into statements about any device that tells the truth about its room.
* **C81.** Composition of C75, C71 and C78: the calls behind a session are split at the messages, frames do not move keys, and a
  note-on call has its message.
* **C82.** Two invariants through every step: the chip has the frequency of the pitch the FM device remembers, and while a voice
  sounds that pitch is the one its note, bend, range and fine tune ask for. With the tuning of a history (C60), C20, C21
  and C71.
* **C83.** The same for the PSG, with a third invariant in the driver: a channel that sounds has the tone of its pitch with the
  shift of the envelope byte it is at; every frame restores it. With C22, C61 and C82.
* **C84.** The same invariant says the channel has the attenuation of its volume, velocity and envelope byte. The reference is a
  fresh note (C24); the volume is traced to the last one sent to the MIDI channel (C38's cache invariants).
* **C85.** The FM counterpart: the invariants of C31, C38 and C23 hold between messages, so the chip can be compared with the
  settings read off the messages at any moment. `step_velocity` shows a voice's velocity changes only with a key-on write, which
  gives the level of a held note in terms of the note-on that struck it. FM channel 3 shares its operators with the
  special-mode voices; `channel3_tl` shows its levels are its own while no message is for one of those (`Channel3Alone`).
* **C86.** C71, C82-C85 put together for keyboard playing in dynamic mode: an induction over presses and releases
  (`keyboard_induct`) carries the velocity each sounding voice's driver has (`VelInv`), so that pitch, level, sound and sides
  of every held key are given by the messages alone.
* **C87.** The static-mode counterpart, for a channel with one FM or PSG voice. C15's description of the note stack is carried
  along with the chip's key and the driver's velocity (`Line`); C82 and C85, or C83 and C84, give pitch and sound, C78 the silence
  after the last PSG note. A separate induction over the messages
  shows that the stack gives the key pressed last when playing is legato (`Legato`).
* **C88.** C75's session theorem under C86 and C87: bytes on the cable, cut and mixed with frames in any way, to chip
  registers. The engine's history is the messages' operations with frames in between, and everything C86 and C87 read off
  a history (keys down, velocities, settings, tuning) does not see frames or buffer contents; so the conclusions speak of
  the messages alone (`wire`).
* **C89.** The exclusive message `00 22 77 06` followed by envelope bytes in halves: what `load_psg_envelope` puts together is
  what the driver keeps, from `run_psgBy` (only such messages and resets touch the buffer) and `loadLoop_spec`; with C61, what a
  note begins with afterwards.

Nothing in the list is inexpressible in the model.

## 5. Findings

Where the code and the property as stated disagree. Each entry with a theorem name is proved in Lean from the model; entries
without one are consequences of the model noticed while proving and are visible in the hypotheses of the `_partial` theorems.

**Receiver**
* A real-time byte inside a SysEx or channel message is taken as data (`C04_violated`, `C04_violated_channel_message`).
  Running status is not supported; a data byte where a status is expected is reported and skipped.
* A startup sequence that contains FF makes the firmware restart the sequence forever
  (`C59_reset_inside_never_ends`); a sequence cut inside a message stops the machine (`C59_truncated_dies`).

* A real-time byte before the program number, velocity, or value of controllers 5, 7 or 87 is used as such and indexes beyond
  a table (`C75_violated`, `C75_violated_elsewhere`). Everything else tolerates arbitrary bytes (`C75_any_bytes_partial`).
* `comm_read` waits for the rest of a message, and no handler runs meanwhile: envelopes, glides and display stand still
  (`C75_incomplete_message_stops_time`). Bytes from the network and the demo come from handlers, so there the wait never ends: a timing
  clock followed by a program change in one RTP packet freezes the machine (`C75_network_packet_freezes`), as do opposite
  directions on the pad in demo mode (`C75_demo_freezes`).

**Memory safety (C05)**
* With the DAC on, a note that indexes beyond the sample table is undefined (`C05_violated_dac`). An envelope message of odd
  length reads one indeterminate byte (`C05_violated_envelope`). Data bytes above 127 reach table lookups.
* `comm_write` before a source is selected dereferences NULL (`C45_write_before_selection_is_undefined`); an external
  interrupt between `serial_init` and the registration of the callback calls NULL (`C44_early_interrupt_is_undefined`).
* An over-long log line overflows its buffer (`C46_long_message_is_undefined`).
* An unfinished SysEx in an RTP packet is read past the end of the 1460-byte receive buffer
  (`C48_overread`, `C50_malformed_packet_overread`); packing into a buffer below 12 bytes overruns it (`C49_violated`).

**Voices**
* **C79.** GM reset, and reset all controllers on voice 6's channel, put the voice back on FM but leave the DAC on: FM channel 6
  stays inaudible and a playing sample cannot be ended by its note-off (`C79_violated_gm_reset`,
  `C79_violated_reset_controllers`). A key without a sample, or reached by portamento, leaves the previous sample playing
  (`C79_key_without_sample`, `C79_glide_is_silent`). Controller 78 on any channel switches voice 6.
* The PSG driver drops notes that end up below key 45 while the engine takes the voice for sounding
  (`C61_low_notes_are_lost`); releasing a bend does not bring them back (`C61_bent_low_note_stays_lost`);
  the voice meanwhile goes on playing the previous key (`C61_low_note_leaves_the_old_one`).
* **C20, C55, C61: a remapped voice keeps the bend of its old channel.** Remapping moves neither the bend nor the range to
  the voice; a bend message on the new channel is skipped if the voice was last told the same number, though the range
  differs (`C55_violated_remapped`, `C61_violated_remapped`), and a change of the range applies the old channel's bend
  (`C55_violated_remapped_range`).
* Device select: programs 80, 89 and 99 go to PSG voices even if FM is selected (`C09_violated_square`); "stick to device"
  overrides the selection (`C09_violated_stick`), and with no voice assigned the note is never placed.
* Remapping, mode switches, polyphonic mode and Reset All Controllers strand sounding notes (`C14_*_strands`); remapping can
  push the number of drum voices above two.
* Portamento switched off during a glide, or key 0 with portamento, leaves a note sounding (`C13_portamento_off_sticks`,
  `C13_note_zero_sticks`). In dynamic mode with portamento the second held note
  is lost: its glide target is stored in a free voice; the next note on that voice, even of another MIDI channel, is not found by
  its release and sounds on (`C71_portamento_note_sticks`).
* A trill over a held key silences the voice (`C15_trill_silences`); a release may return to the wrong key
  (`C15_wrong_note`); keys let go by All Notes Off come back when a later one is released (`C15_all_notes_off_resumes`).
  Key 0 cannot be told from "no note". The 11th held key is dropped.
* All Notes Off lets a sample play on (`C17_sample_plays_on`) and does not forget held keys (`C18_old_note_comes_back`,
  `C18_new_note_lost`).
* FM channels ignore keys outside 11..106.

**Pitch**
* Bends wrap below key 0 and above 255 (`C20_low_bend_wraps`, `C20_high_bend_wraps`), below key 11 the F-number of another
  octave is used, above 106 the octave wraps (`C21_violated`). One-cent steps do not always change the F-number.
* A bend on the drum channel retunes the drum to its key instead of its fixed pitch (`C20_bend_moves_drums`).
* Glides to low keys wrap, may never end, and downward glides end up to 99 cents early (`C19_*`).
* PSG pitch 255 with cents wraps to key 0 (`C22_top_pitch_wraps`). Fine tune (CC 85) does not retune sounding notes.

**FM parameters**
* Changing the algorithm and playing special-mode notes leave total levels stale (`C23_violated`,
  `C28_algorithm_change_leaves_levels_stale`, `C28_special_mode_note_leaves_level_stale`). Loading a preset zeroes the shadow
  frequency without a chip write (`C28_preset_forgets_frequency`).
* The sustain-rate controller reaches 0..15 of 0..31 (`C37_sustain_rate_violated`); CC 80, 84 and 87 are not gated
  (`C37_special_mode_not_gated`).
* FM parameter controllers on a channel mapped to a PSG or special-mode voice change the FM channel with the same number
  (`C30_parameter_leaks`); LFO, DAC and special mode are global (`C30_lfo`); a drum on PSG noise makes an FM
  channel percussive (`C30_percussion_leaks`). In static mode a drum thus makes the next retrigger of voice 4 a
  drum at the drum's own key (`C82_violated_drum_flag`).
* A fine tune (CC 85) does not retune the notes that sound, unlike bend and bend range (`C82_violated_fine_tune`,
  `C83_violated_fine_tune`). An envelope loaded under a sounding PSG voice leaves the old shift and level until the next
  frame (`C83_violated_envelope`, `C84_violated_envelope`).
* A voice that is remapped while it sounds keeps pitch, level, sound and sides of its old MIDI channel until its next note, even
  if the new channel is at volume 0 (`C82_violated_remapped`, `C83_…`, `C84_…`, `C85_violated_remapped`).
* A note on a special-mode voice (MIDI channels 11 to 13) sets the level of its operator of FM channel 3 also while special mode
  is off, under the note MIDI channel 3 holds (`C85_violated_special_voice`).
* A key below 45 that comes when the six FM voices are taken is given to the PSG, which cannot play it: it is held and silent
  (`C86_violated_low_key`).
* A held key that sounds again when a later one is released comes back with the velocity of the later one
  (`C87_violated_resumed_velocity`, `C87_violated_psg_resumed_velocity`).
* CC 77 changes the stereo bits behind the pan cache (`C38_full_fails`); a pan or program sent while voice 6 plays samples
  is dropped but cached (`C38_fails_after_samples`, `C31_violated`). A program the voice already has is not reloaded
  (`C31_same_program`).

**Resets**
* Reset all controllers (121) takes the channel's voices as idle without telling the PSG: the note sounds for ever
  (`C78_violated_reset_controllers`). GM reset does the same to a voice that was unassigned while it sounded
  (`C78_violated_gm_reset`).
* System reset writes nothing to the PSG and forgets its notes (`C39_psg_untouched`, `C39_violated`, `C27_reset_leaves_note_sounding`).
  A stored preset 0 is heard after a reset but not after power-on. Reset without SRAM loses user presets.
* Reset All Controllers remaps all voices, changes the Auto preference and strands notes; a voice takes the settings of the
  channel with its own number (`C40_violated`). A GM reset is recognised by prefix, silences only mapped voices and puts device 5 back
  on FM while the DAC stays on.

**Preset memory**
* Clearing wipes only the magic number: a crash two bytes into the next store revives the cleared preset
  (`C34_crash_revives_cleared_preset`); a torn store with an equal checksum is loaded (`C34_torn_store_loads_mixture`). The
  version byte is not checked.
* The SRAM code releases the Z80 bus when it was taken and vice versa (`C58_preset_memory_inverts_the_bus`), and starting a sample
  with the DAC off releases it (`C58_sample_with_dac_off`).

**Scheduler, serial, demo**
* A vertical blank during the frame handlers is lost (`C47_blank_during_handlers_is_lost`).
* A serial overflow loses the byte just read; bytes received before start-up are discarded
  (`C44_startup_discards_stale_bytes`).
* Opposite directions on the pad overflow the demo's ring and tear a message (`C52_opposite_directions_tear`); two buttons held together
  retrigger every frame (`C52_two_buttons_repeat_every_frame`). `comm_demo_write_ready` is constantly false, so an answer (pong, dump)
  in demo mode waits forever (`C80_violated_demo_write_hangs`).
* `flush_rrdy` runs with the receive interrupt already on; an interrupt between its look and its read makes it read an empty
  receiver (`C80_violated_flush`; the byte is discarded). The Everdrive Pro's FIFO is written without asking for room. Any cartridge
  whose word at 0xA130E4 begins with 0x00 or 0x40 is taken for an X7, and is then written to.
* Octets 100..109 and 200..209 are printed without their middle zero (`C53_two_addresses_same_text`).

**Display**
* A portamento down to a low key wraps the sounding pitch above 127; the note name is read past the end of its table
  (`C62_low_glide_reads_past_the_names`).
* A0 shows as `???` (`C63_A0_is_not_named`), key 0 as silence (`C63_key_zero_shows_as_silence`).
* `lastMidiChans` is compared against but never written: the assignment of all voices to channel 1 is never drawn
  (`C64_all_first_is_not_drawn`), every other one is redrawn every five frames.
* A program change after a controller change leaves the last two cells of the older text on the screen: `P=5  40`
  (`C65_program_leaves_residue`).
* A system reset puts every FM channel back to the first preset without telling the display: an open parameter panel keeps
  showing the old values (`C66_reset_leaves_the_panel`).
* The remembered routing mode starts as "fixed" whatever was drawn: a build that starts with dynamic assignment and is switched
  within the first frames keeps showing the dynamic tiles (`C67_stale_routing`).
* The log lines are cleared one column left of where they are drawn: messages of 35 characters and more leave their end behind
  (`C68_long_message_leaves_a_remnant`).
* "Serial: Attempted read from empty buffer" has 40 characters; logging it would write its NUL behind the 40-byte field
  (`C69_violation`). No serial schedule reaches the call (`C69_serial_message_not_logged`).
* **C70: log() is not safe against the serial interrupt.** The overflow warning is logged from the interrupt (comm_serial.c:33)
  while the main program may be inside `log()`. Between `writeHead++` and its wrap the interrupt writes behind the array
  (`C70_overrun_out_of_bounds`); between choosing the entry and `writeHead++` its warning is lost and a stale entry is shown
  (`C70_warning_lost`); before the comparison of the heads it is shown twice and out of order (`C70_warning_doubled`).
* **C72: the sample table is shifted.** `percussionPcmSample` starts with 26 instead of 27 empty entries: every General MIDI key
  plays the sample of the key above (38, acoustic snare, plays the hand clap), so that of 47 keys only 35 and 80 are right; FM
  drums are in place (`C72_samples_one_key_low`, `C72_wrong_sample`). Drum keys outside 27 to 87 key a voice that cannot be heard.

* **C73: preset memory is never found after switching on.** `main` calls `midi_init`, which chooses the preset memory
  (`sram_init`) by asking whether a cartridge was detected, before `comm_init`, which detects it: both flags are still false
  (`C73_preset_memory_never_found`). Saving and clearing only log "No SRAM", loading does nothing, and a system reset drops the
  user presets (`C73_nothing_kept`, `C33_violated`). Only a restart that keeps the variables (reset button under SGDK)
  uses the memory (`C73_found_after_warm_restart_partial`). C33 and C34 speak about such sessions.

* Saving, clearing or loading presets switches the cartridge LED off while `ledOn` stays true, so that bytes received in the
  rest of that frame do not light it (`C74_led_missed`), and leaves the horizontal interrupt enabled
  (`C74_horizontal_interrupt_left_on`; without a handler and with SGDK's line counter of 255 it has no effect).

**Network**
* The 12-bit length is shifted by 12 instead of 8: lists of 256 bytes and more are rejected (`C48_long_list_rejected`,
  `C49_long_not_decoded`) and hence never acknowledged. Multi-byte delta times, the bytes F0/F7/FF inside them, single-byte messages and
  the Z flag are misread (`C48_violated`).
* An exclusive message sent in segments is cut off after the first and executed as if complete (`C48_segments`,
  `C48_segments_violated`).
* An answer is lost while another packet waits or is in flight (`C50_answer_lost`); a packet of 2 or 3 bytes executes the command
  left in the buffer by its predecessor (`C50_short_packet_ends_session`); sequence number 0 is never acknowledged at first
  (`C50_sequence_zero_not_acknowledged`); the second clock timestamp loses its carry; after BY packets are
  addressed to 0.0.0.0:0; a datagram of any host redirects the session; the RTP sequence number advances although
  the packet is dropped; a packet refused by the radio is lost.
* The result of joining the access point is dropped: a radio without one may count as working, without a report (`C76_violated`,
  `C76_association_ignored`). If the MIDI port cannot be opened the control port stays open (`C76_violated_ports`). The waiting time is
  counted in frames of a 60 Hz machine; on a 50 Hz one it is 24 seconds.

## 6. Testing the theorems

`seeded/LOG.jsonl` records edits of the model in a scratch copy (wrong boundaries, dropped updates, exchanged arguments), the claims
they break, and the theorems that stopped proving. Edits that survived led to the theorems named in `tightened`.
