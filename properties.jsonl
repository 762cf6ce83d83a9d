{"id": "C01", "title": "MIDI stream framing", "statement": "When a concatenation of complete MIDI messages (note on/off, CC, program, pitch bend, song position, clock/start/continue/stop, SysEx of at most 255 payload bytes, system reset) is fed byte by byte to the receiver, the MIDI engine is invoked once per message, in order, with exactly the channel and values encoded in that message, and nothing else.", "quantifier": "for every finite list of well-formed messages with every channel, data byte and SysEx payload", "why_tests_cant": "The receiver has no length field: one mis-sized message shifts every later byte. Tests try single messages; the claim is about all concatenations.", "anchors": ["src/midi_rx.c: midi_rx_read, read_message, read_note_on, read_note_off, read_control_change, read_pitch_bend, read_program, read_system_message, read_sysex"]}
{"id": "C02", "title": "Over-long SysEx is contained", "statement": "A SysEx whose payload is longer than 256 bytes hands exactly its first 256 bytes to the SysEx handler; the remaining payload (bytes below 0x80) and the terminator cause only log warnings and no call into the MIDI engine.", "quantifier": "for every payload of any length of 7-bit bytes", "why_tests_cant": "The payload is unbounded; the interesting inputs are arbitrarily long.", "anchors": ["src/midi_rx.c: read_sysex, read_message, read_system_message"]}
{"id": "C03", "title": "Bytes that are not supported messages have no effect on sound", "statement": "Stray data bytes, aftertouch status bytes, undefined system bytes, song position, clock, start, continue and stop never change any device channel, MIDI channel, configuration or chip register; they only log.", "quantifier": "for every engine state and every such byte sequence", "why_tests_cant": "Quantifies over all states the engine can be in when the byte arrives.", "anchors": ["src/midi_rx.c: read_message, read_system_message"]}
{"id": "C04", "title": "Real-time bytes inside a SysEx are transparent", "statement": "A system real-time byte (F8, FA, FB, FC) arriving between SysEx payload bytes does not become part of the payload.", "quantifier": "for every payload and every insertion point", "why_tests_cant": "All interleavings of real-time bytes with a payload.", "anchors": ["src/midi_rx.c: read_sysex"]}
{"id": "C05", "title": "No undefined behaviour on valid MIDI", "statement": "Starting from boot, no sequence of well-formed MIDI messages (7-bit data bytes) and frame ticks makes the engine index an array out of bounds, dereference a null pointer or read an indeterminate byte.", "quantifier": "for every finite history of messages and ticks, from the boot state", "why_tests_cant": "Out-of-bounds reads usually do not fail a unit test, and the bad index may only be reachable after a specific history.", "anchors": ["src/midi.c: midi_note_on, midi_note_off, midi_cc, midi_program, midi_pitch_bend, midi_sysex, midi_tick", "src/midi_fm.c: midi_fm_program, midi_fm_note_on", "src/synth.c: volume_adjusted_total_level", "src/midi_psg.c: effective_attenuation", "src/midi_dac.c: midi_dac_note_on"]}
{"id": "C06", "title": "Malformed or foreign SysEx is ignored", "statement": "A SysEx that is shorter than 4 bytes, has another manufacturer header, names an unknown or reply-only command, or has the wrong payload length for a fixed-length command changes nothing (no engine state, no chip write, no transmitted byte).", "quantifier": "for every byte string and every engine state", "why_tests_cant": "The set of malformed inputs is infinite and the claim is about every state.", "anchors": ["src/midi.c: midi_sysex, SYSEX_COMMANDS"]}
{"id": "C07", "title": "Channel map is always valid", "statement": "At every moment every device channel is mapped either to a MIDI channel 0..15 or to the 'unassigned' marker 0x7F, whatever MIDI messages, SysEx commands and ticks have been processed.", "quantifier": "for every finite history of API calls, including SysEx with arbitrary bytes", "why_tests_cant": "Invariant over unbounded histories.", "anchors": ["src/midi.c: midi_remap_channel, apply_dynamic_mode, init_device_channel, midi_note_on, midi_channel_mappings"]}
{"id": "C08", "title": "A note never steals a voice sounding for another MIDI channel", "statement": "A note-on for MIDI channel c is placed on a device channel that is either idle or already mapped to c; in dynamic mode, if an idle suitable voice exists in the selected device range, a sounding voice is never interrupted.", "quantifier": "for every engine state, channel, pitch and velocity", "why_tests_cant": "All combinations of 13 voices' mapping, activity and configuration.", "anchors": ["src/midi.c: findFreeChannel, findFreeMidiAssignedChannel, findFreePsgChannelForSquareWaveVoices, findDeviceSpecificChannel, findAnyFreeChannel, midi_note_on"]}
{"id": "C09", "title": "Device select is honoured", "statement": "In dynamic mode, a note on a MIDI channel whose device-select controller chose FM (respectively PSG tone, PSG noise) is placed only on a device of that type.", "quantifier": "for every engine state, channel and device-select value", "why_tests_cant": "All allocator states.", "anchors": ["src/midi.c: set_device_min_max_chans, findFreeChannel, findFreePsgChannelForSquareWaveVoices"]}
{"id": "C10", "title": "Percussion polyphony and placement", "statement": "A percussion note-on (MIDI channel 10) never raises the number of simultaneously sounding percussion voices above two, and in dynamic mode percussion is never placed on a PSG channel.", "quantifier": "for every engine state; as an invariant, for every history of note events", "why_tests_cant": "Depends on every possible voice occupancy.", "anchors": ["src/midi.c: tooManyPercussiveNotes, isPsgAndIncomingChanIsPercussive, midi_note_on"]}
{"id": "C11", "title": "Note-on with velocity zero is note-off", "statement": "midi_note_on(c, p, 0) has exactly the same effect as midi_note_off(c, p).", "quantifier": "for every engine state, channel and pitch", "why_tests_cant": "Equality of two transformations on all states.", "anchors": ["src/midi.c: midi_note_on, midi_note_off"]}
{"id": "C12", "title": "Note-off releases the note on every voice of its channel and touches no other channel", "statement": "After midi_note_off(c, p) no device channel mapped to c is sounding p (as current or glide-target pitch), and device channels mapped elsewhere, all other MIDI channels and the configuration are unchanged.", "quantifier": "for every engine state, channel and pitch", "why_tests_cant": "All voice states.", "anchors": ["src/midi.c: midi_note_off, dev_chan_note_off, isChannelPlayingNote"]}
{"id": "C13", "title": "A released note never keeps sounding (fixed mapping)", "statement": "With a mapping that does not change, after any history of note-on, note-off, bend, volume, pan, program, portamento and tick events, if a voice is sounding then the last note event for its pitch on its MIDI channel was a note-on; in particular when all notes are released every voice is silent and its chip channel is keyed off.", "quantifier": "for every finite history of such events on all channels, with any interleaving", "why_tests_cant": "Stuck notes depend on long overlapping press/release histories.", "anchors": ["src/midi.c: midi_note_on, midi_note_off, midi_tick", "src/note_priority.c"]}
{"id": "C14", "title": "Re-mapping or mode switching never strands a sounding note", "statement": "If a MIDI channel's voices are re-mapped (remap SysEx, dynamic/static switch, polyphonic CC, CC 121) while a note is sounding, the later note-off still silences it.", "quantifier": "for every history", "why_tests_cant": "Interleavings of configuration changes with held notes.", "anchors": ["src/midi.c: midi_remap_channel, set_dynamic_mode, resetAllControllers, midi_note_off"]}
{"id": "C15", "title": "Last-note priority", "statement": "On a MIDI channel with exactly one voice, the sounding note is always the most recently pressed note that is still held (up to 10 held notes).", "quantifier": "for every finite press/release history", "why_tests_cant": "Property of all overlapping press/release orders.", "anchors": ["src/midi.c: midi_note_on, midi_note_off", "src/note_priority.c"]}
{"id": "C16", "title": "Note stack behaves as a bounded last-in first-out list", "statement": "The held-note stack holds at most 10 pitches; push appends (ignored when full), pop returns and removes the newest (0 when empty), remove deletes every occurrence of a pitch and keeps the order of the rest; no operation accesses memory outside its 10 slots.", "quantifier": "for every sequence of push/pop/remove/isFull/count operations", "why_tests_cant": "Unbounded operation sequences.", "anchors": ["src/note_priority.c: note_priority_push, note_priority_pop, note_priority_remove, note_priority_isFull, note_priority_count"]}
{"id": "C17", "title": "All Notes Off silences exactly its channel", "statement": "CC 120 or 123 on channel c leaves every device channel mapped to c not sounding (FM channels keyed off), and does not change any other device channel.", "quantifier": "for every engine state and channel", "why_tests_cant": "All voice states.", "anchors": ["src/midi.c: all_notes_off, midi_cc", "src/midi_fm.c: midi_fm_all_notes_off", "src/midi_psg.c: midi_psg_all_notes_off"]}
{"id": "C18", "title": "All Notes Off forgets held notes", "statement": "After All Notes Off on a channel, notes that were held before it are never retriggered, do not count as held, and new notes sound as if the channel were fresh.", "quantifier": "for every history", "why_tests_cant": "Needs the right stale history to show.", "anchors": ["src/midi.c: all_notes_off, midi_note_on, midi_note_off"]}
{"id": "C19", "title": "Portamento glides monotonically to its target", "statement": "While a glide is active each frame tick moves the pitch strictly towards the target by the portamento interval, never past it, and the target is reached after finitely many ticks.", "quantifier": "for every start pitch, target pitch, cents and portamento time", "why_tests_cant": "Unbounded number of ticks; wrap-around only occurs for particular combinations.", "anchors": ["src/midi.c: process_channel_glide, process_portamento, midi_tick, set_portamento_time", "src/pitchcents.c: pc_shift"]}
{"id": "C20", "title": "Pitch bend arithmetic", "statement": "The effective pitch equals the key in cents plus bend*(range)/8192 truncated toward zero plus fine tune; a centred bend changes nothing and a larger bend never gives a lower pitch.", "quantifier": "for every key, bend value, bend range and fine-tune", "why_tests_cant": "14-bit bend times range times key is too large to enumerate and wraps only at the edges.", "anchors": ["src/pitchcents.c: pc_bend, pc_shift", "src/midi.c: effectivePitchCents"]}
{"id": "C21", "title": "FM note numbers map to the right chip frequency", "statement": "For keys 11..106 the block/F-number written to the YM2612 are in range (3 and 11 bits), strictly increase with pitch and cents, and one octave up is exactly one block up; a bend or glide that raises the pitch never lowers the chip frequency.", "quantifier": "for every key and cents value, both video standards", "why_tests_cant": "Monotonicity is a claim about all pairs.", "anchors": ["src/midi_fm.c: midi_fm_pitch_to_octave, midi_fm_pitch_cents_to_freq_num, midi_fm_pitch", "src/synth.c: synth_pitch, write_octave_and_frequency"]}
{"id": "C22", "title": "PSG tone mapping", "statement": "Every pitch/cents combination maps to a 10-bit tone between the tones of the neighbouring keys, higher pitch never gives a larger divider, and the lookup never leaves the table.", "quantifier": "for every 8-bit pitch and cents 0..99, both video standards", "why_tests_cant": "Monotonicity over all pairs.", "anchors": ["src/midi_psg.c: tone_for_midi_key, tone_from_pitch_cents"]}
{"id": "C23", "title": "FM loudness is monotone in volume and velocity and affects only carriers", "statement": "Raising channel volume or velocity never raises the total level written for any operator; maximum volume and velocity give the preset's own level, zero gives silence (127); modulators are never attenuated by volume.", "quantifier": "for every preset, algorithm, volume and velocity", "why_tests_cant": "All pairs of volumes, all presets.", "anchors": ["src/synth.c: effective_total_level, is_output_operator, volume_adjusted_total_level, synth_volume", "src/midi_fm.c: effective_volume"]}
{"id": "C24", "title": "PSG loudness", "statement": "The attenuation written to the PSG is always 0..15, is monotone in volume, velocity and envelope level, equals the envelope level at full volume and is silent at zero volume.", "quantifier": "for every volume, velocity and envelope byte", "why_tests_cant": "All combinations and pairs.", "anchors": ["src/midi_psg.c: effective_attenuation"]}
{"id": "C25", "title": "PSG envelope playback never leaves the envelope", "statement": "Whatever envelopes are loaded (SysEx) before or during playback, and whatever notes, releases and ticks occur, the envelope cursor always points into an END-terminated region.", "quantifier": "for every history of load/note/release/program/tick/reset and every envelope contents", "why_tests_cant": "A user envelope can be replaced while a note is playing it; only particular histories would run off the end.", "anchors": ["src/midi_psg.c: apply_envelope_step, increment_envelope_step, midi_psg_load_envelope, init_envelope, midi_psg_note_on, midi_psg_tick"]}
{"id": "C26", "title": "PSG release terminates and sustain persists", "statement": "After note-off a PSG voice is silent within a number of ticks bounded by its envelope's length; while held, a looping envelope never ends by itself.", "quantifier": "for every envelope, every time of release and number of ticks", "why_tests_cant": "Liveness and safety over unbounded ticks.", "anchors": ["src/midi_psg.c: midi_psg_note_off, apply_envelope_step, midi_psg_tick"]}
{"id": "C27", "title": "PSG chip state matches the driver's cache", "statement": "The tone and attenuation last written to each PSG channel equal the values the driver has cached (so suppressed 'unchanged' writes are harmless).", "quantifier": "for every history of PSG operations", "why_tests_cant": "Write suppression is only wrong after specific histories.", "anchors": ["src/midi_psg.c: apply_tone, apply_attenuation, midi_psg_reset"]}
{"id": "C28", "title": "YM2612 registers match the driver's parameters", "statement": "After initialisation, for any sequence of driver calls the last value written to every parameter register of every channel and operator is the encoding of the parameters the driver reports (synth_channel_parameters), with total level adjusted for volume on carriers.", "quantifier": "for every finite sequence of driver calls without raw register writes", "why_tests_cant": "Coherence after arbitrary histories; caching skips writes.", "anchors": ["src/synth.c: synth_* functions, write_* functions, update_channel"]}
{"id": "C29", "title": "A YM2612 channel's driver calls write only that channel's registers", "statement": "A driver call for FM channel n writes only registers that belong to channel n (and key-on/off for n); distinct (channel, operator, parameter) triples use distinct registers.", "quantifier": "for every channel, operator, parameter and value", "why_tests_cant": "Address arithmetic must be injective for all combinations.", "anchors": ["src/synth.c: write_channel_reg, write_operator_reg, reg_operator_index, key_on_off_reg_offset"]}
{"id": "C30", "title": "MIDI channels do not disturb one another", "statement": "A channel message (note, bend, program, volume, pan, FM parameter CC) on MIDI channel c changes chip state only of device channels mapped to c.", "quantifier": "for every engine state and message", "why_tests_cant": "All states, all messages.", "anchors": ["src/midi.c: fm_parameter_cc, set_fm_chan_parameter, update_device_channel_from_associated_midi_channel", "src/midi_fm.c: midi_fm_percussive"]}
{"id": "C31", "title": "Program change selects the stored or built-in preset", "statement": "After a program change to p on a MIDI channel mapped to an FM channel, that channel's chip parameters are those of the user preset stored for p if one is stored, else of built-in preset p, keeping stereo.", "quantifier": "for every engine state, channel and program", "why_tests_cant": "The engine skips unchanged programs, so correctness depends on history.", "anchors": ["src/midi.c: midi_program, update_program", "src/midi_fm.c: midi_fm_program, midi_fm_store_preset"]}
{"id": "C32", "title": "Preset store / dump round trip", "statement": "Storing a program by SysEx and then requesting its dump returns exactly the stored parameters (each masked to its hardware width); other programs' dumps are unchanged; clearing returns the built-in preset. Storing by controller 87 keeps what the chip has for the MIDI channel's first FM voice.", "quantifier": "for every program number, every parameter bytes and every engine state", "why_tests_cant": "50 free payload bytes.", "anchors": ["src/midi.c: store_program, clear_program, clear_all_programs, dump_preset_request, dump_channel_request, send_preset_dump", "src/midi_fm.c: midi_fm_store_preset, midi_fm_get_stored_preset"]}
{"id": "C33", "title": "Stored presets survive power cycles", "statement": "A preset stored before power-off is the active user preset for that program after the next start; a cleared one is not; presets of other programs are unaffected.", "quantifier": "for every history of store/clear operations and every preset", "why_tests_cant": "Persistence across restarts and all slot layouts.", "anchors": ["src/sram/midi_fm_sram.c: midi_fm_sram_save_preset, midi_fm_sram_load_presets, midi_fm_sram_clear_preset", "src/sram/sram.c"]}
{"id": "C34", "title": "Corrupted or torn preset slots are not loaded", "statement": "If power fails at any byte while a preset is written or cleared, other slots are unaffected, and after restart the slot holds the old preset, the new preset or nothing; any corruption confined to two adjacent bytes is detected.", "quantifier": "for every crash point, every old and new preset, every corruption", "why_tests_cant": "All crash points and all contents.", "anchors": ["src/sram/midi_fm_sram.c", "src/sram/crc.c"]}
{"id": "C35", "title": "Ping/pong echo", "statement": "A ping SysEx is answered by exactly one pong SysEx carrying the sequence byte if given, and the extra data if the flag byte is 1.", "quantifier": "for every ping payload up to the buffer size", "why_tests_cant": "Variable length payload.", "anchors": ["src/midi.c: send_pong", "src/midi_tx.c: midi_tx_send_sysex"]}
{"id": "C36", "title": "Raw YM2612 write SysEx", "statement": "Commands 08/09 write exactly one register of part 0/1 whose address and value are the two nibble pairs, and change nothing else.", "quantifier": "for all nibble values and states", "why_tests_cant": "All states.", "anchors": ["src/midi.c: direct_write_ym2612", "src/synth.c: synth_direct_write_ym2612"]}
{"id": "C37", "title": "Controller scaling and gating", "statement": "Each FM parameter controller sets its parameter to value*range/128 (total level inverted when configured) on every FM voice of the channel; when non-General-MIDI controllers are disabled, those controllers have no effect on sound.", "quantifier": "for every controller, value, state", "why_tests_cant": "All states and values.", "anchors": ["src/midi.c: set_fm_chan_parameter, midi_cc, set_operator_total_level"]}
{"id": "C38", "title": "Pan mapping", "statement": "Pan 0..31 selects left only, 32..95 both, 96..127 right only, on every FM voice of the channel, and survives program changes.", "quantifier": "for every pan value, state and following program changes", "why_tests_cant": "History dependent because of caching.", "anchors": ["src/midi_fm.c: midi_fm_pan, update_pan", "src/midi.c: channel_pan, update_pan", "src/synth.c: synth_stereo, synth_preset"]}
{"id": "C39", "title": "System reset silences everything and restores defaults", "statement": "After the system reset byte FF every FM and PSG channel is silent on the chip and all MIDI channels, mappings and configuration are back to their power-on values.", "quantifier": "for every prior history", "why_tests_cant": "Any history may precede the reset.", "anchors": ["src/midi.c: midi_reset, reset, reset_channels", "src/midi_psg.c: midi_psg_reset", "src/synth.c: synth_init"]}
{"id": "C40", "title": "Reset All Controllers affects only its own channel", "statement": "CC 121 on channel c resets c's controllers and leaves other channels' voices, mappings and the mapping-mode preference as they were.", "quantifier": "for every engine state and channel", "why_tests_cant": "All states.", "anchors": ["src/midi.c: resetAllControllers, set_dynamic_mode, apply_dynamic_mode"]}
{"id": "C41", "title": "Z80 bus discipline", "statement": "Every YM2612 register write happens while the 68k owns the Z80 bus, and when the DAC driver is enabled the bus is returned to the state it had before the write, with the DAC data register latched before release.", "quantifier": "for every sequence of synth calls, from any bus state", "why_tests_cant": "Balanced acquire/release over all sequences.", "anchors": ["src/synth.c: write_reg_safe, release_z80_bus, synth_enable_dac"]}
{"id": "C42", "title": "Ring buffer is a bounded FIFO", "statement": "The receive ring buffer returns bytes in the order written, holds size-1 bytes, reports full/empty/available correctly and never accesses memory outside its storage.", "quantifier": "for every size of at least 2 and every sequence of operations", "why_tests_cant": "Unbounded sequences and all wrap positions.", "anchors": ["src/comm/ring_buf.c"]}
{"id": "C43", "title": "Ring buffer is safe between interrupt and main loop", "statement": "With one producer (interrupt) and one consumer (main loop) interleaved at any instruction boundary, the bytes read are exactly a prefix of the bytes accepted, in order; no byte is duplicated, lost or torn.", "quantifier": "for every interleaving of producer and consumer steps", "why_tests_cant": "Schedules cannot be enumerated by tests.", "anchors": ["src/comm/ring_buf.c: ring_buf_write, ring_buf_read, ring_buf_can_read"]}
{"id": "C44", "title": "Serial receive order and loss", "statement": "Bytes arriving on the serial port are delivered to the MIDI receiver in arrival order; bytes are lost only when 511 bytes are already waiting.", "quantifier": "for every arrival/read schedule", "why_tests_cant": "Schedules.", "anchors": ["src/comm/comm_serial.c", "src/comm/serial.c"]}
{"id": "C45", "title": "Communication source selection is sticky", "statement": "The first interface found with data becomes the only source of MIDI bytes; afterwards bytes from other interfaces are never read and all output goes to it; activity counters never exceed their cap.", "quantifier": "for every schedule of arrivals on all interfaces", "why_tests_cant": "Schedules.", "anchors": ["src/comm/comm.c"]}
{"id": "C46", "title": "Log keeps the most recent messages in order", "statement": "The on-screen log queue returns messages in order and, when not drained, keeps exactly the 9 most recent.", "quantifier": "for every sequence of log and dequeue operations", "why_tests_cant": "Unbounded sequences; the capacity is not the nominal 10.", "anchors": ["src/log.c"]}
{"id": "C47", "title": "Frame handlers see every vertical blank", "statement": "The frame counts delivered to frame handlers add up to the number of vertical blanks that occurred, whatever the timing of interrupts relative to the main loop.", "quantifier": "for every interleaving of vsync interrupts and scheduler steps", "why_tests_cant": "Interrupt timing.", "anchors": ["src/scheduler.c: scheduler_tick, scheduler_vsync"]}
{"id": "C48", "title": "RTP-MIDI payload decoding", "statement": "An RTP-MIDI packet carrying a list of MIDI commands with delta times and running status emits exactly those commands in order with explicit status bytes, and never reads outside the packet.", "quantifier": "for every list of commands, delta times and use of running status", "why_tests_cant": "Packets are unbounded structured inputs.", "anchors": ["src/comm/rtpmidi.c: rtpmidi_processRtpMidiPacket"]}
{"id": "C49", "title": "RTP-MIDI packing", "statement": "A packed RTP-MIDI packet carries the given MIDI bytes, a valid header and sequence number, never overruns its buffer, and is decoded back by the same implementation.", "quantifier": "for every MIDI byte list, buffer size and sequence number", "why_tests_cant": "All lengths.", "anchors": ["src/comm/rtpmidi.c: rtpmidi_packRtpMidiPacket"]}
{"id": "C50", "title": "AppleMIDI session protocol", "statement": "Every well-formed invitation is accepted with its own initiator token, every clock-sync request is answered once with the sender's first timestamp echoed, receiver feedback acknowledges the last received sequence number, and malformed packets are ignored.", "quantifier": "for every packet contents", "why_tests_cant": "All field values.", "anchors": ["src/comm/applemidi.c"]}
{"id": "C51", "title": "UDP transmit slot is never overwritten while busy", "statement": "A network packet handed to the radio is sent exactly once and unchanged; packets submitted while one is pending are dropped whole, never merged, and received datagrams are each processed once.", "quantifier": "for every interleaving of sends, completions and polls", "why_tests_cant": "Asynchronous completion order.", "anchors": ["src/comm/comm_megawifi.c"]}
{"id": "C52", "title": "Demo mode output is well formed", "statement": "The joypad demo only ever produces complete note, program and CC messages with pitch 11..106 and program 0..127, for any button history without opposite directions pressed together, when the receiver drains between frames.", "quantifier": "for every joypad history", "why_tests_cant": "Unbounded histories.", "anchors": ["src/comm/comm_demo.c"]}
{"id": "C53", "title": "IP address formatting", "statement": "An IPv4 address is shown as its four decimal octets separated by dots.", "quantifier": "for every 32-bit address", "why_tests_cant": "2^32 inputs.", "anchors": ["src/comm/ip_util.c"]}
{"id": "C54", "title": "Everdrive PRO framing", "statement": "A byte string written to the Everdrive PRO link is framed with its command header and big-endian length; a read of n bytes returns the next n bytes of the FIFO for any arrival schedule.", "quantifier": "for every byte string and arrival schedule", "why_tests_cant": "Schedules and lengths.", "anchors": ["src/comm/comm_everdrive_pro.c"]}
{"id": "C55", "title": "Bend range (RPN 0)", "statement": "Only RPN 0 data entry changes the bend range, MSB sets semitones and LSB cents of that channel, and sounding bent voices are retuned; other RPNs change nothing.", "quantifier": "for every RPN selection history and state", "why_tests_cant": "Histories of RPN MSB/LSB selections.", "anchors": ["src/midi.c: update_rpn, rpn_data_entry, update_pb_range"]}
{"id": "C56", "title": "Load meter bounds", "statement": "The displayed CPU load is always between 0 and 100 percent and never divides by zero.", "quantifier": "for every history of reads and idle polls", "why_tests_cant": "Unbounded counters.", "anchors": ["src/ui.c: load_percent, update_load", "src/comm/comm.c: comm_idle_count, comm_busy_count"]}
{"id": "C57", "title": "Channel 3 special mode", "statement": "Notes on the three special-mode device channels change only the pitch and level of the corresponding channel-3 operator registers; distinct operators use distinct registers.", "quantifier": "for every operator, key, cents, velocity and synth state", "why_tests_cant": "All states.", "anchors": ["src/midi_fm_sm.c", "src/synth.c: synth_special_mode_pitch, synth_special_mode_volume"]}
{"id": "C58", "title": "Z80 bus ownership across preset memory and samples", "statement": "Every write to the YM2612 happens while the 68k owns the Z80 bus, whatever mix of notes, samples, preset stores and clears and resets precedes it, and storing or clearing a preset leaves the bus in the state it found it in.", "quantifier": "for every finite history of FM device calls, either initial bus state and any initial memory contents", "why_tests_cant": "The register write that misses the bus comes arbitrarily long after the call that lost it, and mocks do not model who owns the bus.", "anchors": ["src/sram/sram.c: sram_enable, sram_disable", "src/sram/midi_fm_sram.c: midi_fm_sram_save_preset, midi_fm_sram_clear_preset, midi_fm_sram_load_presets", "src/midi_dac.c", "src/synth.c: write_reg_safe, synth_enable_dac"]}
{"id": "C59", "title": "Startup sequence", "statement": "The configured startup MIDI sequence is executed completely, in order, at power-on and again after every system reset message; a sequence that contains a system reset never finishes, and one that ends inside a message stops the program with an error instead of reading past its end.", "quantifier": "for every startup sequence made of complete messages and stray bytes, every engine state", "why_tests_cant": "Every possible user configuration.", "anchors": ["src/midi_rx.c: midi_rx_run_startup_sequence, read_startup_sequence, read_system_message", "src/settings.c: settings_startup_midi_sequence", "src/main.c: main"]}
{"id": "C60", "title": "What a note-on plays", "statement": "Whenever a note-on message keys an FM channel, the chip's channel then has the preset of the program last selected on that MIDI channel (or, on channel 10, of the drum), its carriers lowered by the channel's volume times the velocity, the outputs of the channel's pan, and a frequency within 5 cents of the key with the channel's bend, bend range and fine tune, whatever the voice played before and for whichever MIDI channel.", "quantifier": "for every history of messages, every preset memory content, every FM voice and every note-on", "why_tests_cant": "The engine caches per voice what it last sent and voices change hands between MIDI channels and drums; a stale cache shows only after particular sequences of notes, mappings and settings.", "anchors": ["src/midi.c: midi_note_on, update_device_channel, find_free_device_channel", "src/midi_fm.c: midi_fm_note_on, set_preset, midi_fm_percussive", "src/synth.c: synth_preset, synth_volume"]}
{"id": "C61", "title": "PSG voices as the chip hears them", "statement": "A note-on that comes to a PSG voice leaves the chip's tone divider at that of the key with the MIDI channel's bend, bend range and fine tune, shifted as the envelope's first byte says, and its attenuation at that of volume, velocity and that byte; bends and bend ranges retune sounding PSG voices likewise; the driver's and the engine's copies of volume, envelope, tone and attenuation are always the true ones, and nothing outside ten-bit tones and four-bit attenuations is ever sent to the four channels.", "quantifier": "for every history of messages, every preset memory content, each of the four PSG voices, every note-on, bend and bend range", "why_tests_cant": "Three layers of caches (engine, driver, chip) skip writes they think redundant; a stale copy shows only after particular sequences of messages across MIDI channels that share a voice.", "anchors": ["src/midi.c: midi_note_on, midi_pitch_bend, update_device_channel, set_downstream_pitch", "src/midi_psg.c: midi_psg_note_on, midi_psg_pitch, apply_envelope_step, apply_tone, apply_attenuation"]}
{"id": "C62", "title": "Display memory safety", "statement": "No history of MIDI messages, driver notifications, log messages and frames makes the display code read a name table outside its bounds or overrun one of its fixed text buffers.", "quantifier": "for every history of events, every preset memory content, every configuration", "why_tests_cant": "The tables are indexed by state that thousands of message sequences can influence (sounding pitch, mapping, parameters); only unusual ones reach their ends.", "anchors": ["src/ui.c: update, update_key_on_off, show_pitch, print_midi_changes, print_mappings_if_dirty, print_ticks, ui_init", "src/ui_fm.c: ui_fm_update, update_fm_parameters, update_op_parameters"]}
{"id": "C63", "title": "Displayed notes", "statement": "After every display frame the note column shows, for each of the ten voices, the name of the key that voice sounds, and is blank if it does not sound.", "quantifier": "for every history of events and every voice", "why_tests_cant": "The display caches the last pitch per voice and redraws only differences; a stale cell needs a particular order of notes and frames.", "anchors": ["src/ui.c: update_key_on_off, show_pitch, MIDI_PITCH_NAMES", "src/midi.c: midi_note_on, midi_note_off"]}
{"id": "C64", "title": "Displayed channel mapping", "statement": "At most five frames after the assignment of voices to MIDI channels changed, the channel column of the display shows the MIDI channel of each voice, or a dash for none; it is right from start-up on. The rows keep the numbers of their voices throughout.", "quantifier": "for every history of events and every assignment", "why_tests_cant": "Assignments arise from SysEx remapping, mode changes and dynamic allocation in any order; the redraw condition compares against a cache.", "anchors": ["src/ui.c: print_mappings_if_dirty, print_mappings, update, ui_init"]}
{"id": "C65", "title": "Displayed controller and program changes", "statement": "A controller or program change is announced for 150 frames on every voice that plays its MIDI channel, unless a later one replaces it, and then its cells are blank again; a voice no message concerned stays blank.", "quantifier": "for every history of events, every voice, every controller and program change", "why_tests_cant": "Voices change channels while announcements are pending and announcements replace each other at any point of their life.", "anchors": ["src/ui.c: midi_change_callback, print_midi_changes", "src/midi.c: midi_cc, midi_program"]}
{"id": "C66", "title": "Parameter panel", "statement": "While the FM parameter panel is open on a MIDI channel, every frame leaves it showing the channel numbers, algorithm (text and diagram), feedback, panning, oscillator, modulation depths and all operator values the synthesiser holds for the first FM voice playing that MIDI channel.", "quantifier": "for every history of messages and frames after the panel was opened, every MIDI channel and parameter", "why_tests_cant": "The panel redraws only fields that differ from a cache and only when notified; a missed notification, a stale cache or a forced refresh lost in some order of messages, reassignments and re-openings leaves a wrong value.", "anchors": ["src/ui_fm.c: update_fm_values_if_chan_selected, update_fm_values, ui_fm_set_parameters_visibility, synth_parameter_updated", "src/synth.c: channel_parameter_updated, other_parameter_updated, synth_init"]}
{"id": "C67", "title": "Status line", "statement": "At most five frames after a change the status line shows whether the third voice is in special mode, whether voices are assigned dynamically, and which source of messages was found; until a source is found the picture and the hint of the cartridge that is looked for stay, and a shown source is never replaced.", "quantifier": "all builds, initial memories and sequences of engine calls and display frames; all stretches of at least five timely frames in which the shown quantity is constant", "why_tests_cant": "The status line is redrawn only when a remembered value differs and only every fifth frame; whether memory and tiles can disagree depends on the start-up mode and on what arrives in the first frames.", "anchors": ["src/ui.c:119-142", "src/ui.c:160-168", "src/ui.c:228-239", "src/ui.c:283-323", "src/ui.c:444-495", "src/ui.c:545-553"]}
{"id": "C68", "title": "Log lines", "statement": "The visible part of the two log lines shows the last page of the log messages handed to the display, each character in its cell, and is blank otherwise; the newest message is always readable in full.", "quantifier": "all builds, initial memories and ordinary histories with timely frames; all cells of the two lines; all message texts", "why_tests_cant": "Which cells keep old characters depends on the lengths and order of all earlier messages and on what the other parts of the display draw in between; tests look at one message.", "anchors": ["src/ui.c:181-215", "src/ui.c:283-323", "src/ui.c:340-343", "src/ui_fm.c:415-430"]}
{"id": "C69", "title": "Log messages fit their field", "statement": "Every message the program can log, formatted with any values its arguments can take, fits the 40-byte field of a log entry together with its terminating NUL.", "quantifier": "all log calls in the source; all argument values of their C types; all byte streams, startup sequences, preset memories and main-program calls; all serial schedules", "why_tests_cant": "vsprintf writes without a bound; whether a message fits depends on the widest value of every argument and on which calls can be reached at all. Tests log a handful of short messages.", "anchors": ["src/log.c:46-53", "src/log.h:8-12", "src/midi.c:884", "src/comm/comm_serial.c:74-91", "src/midi_rx.c:95-199"]}
{"id": "C70", "title": "Log under the serial interrupt", "statement": "The log behaves as if the main program's calls and the messages logged by the serial interrupt took effect one after another, each once: no access is out of bounds, and what the main program fetches is what a first-in first-out queue of the nine newest entries returns for that order.", "quantifier": "all schedules of main-program calls, their single statements and interrupt messages; all messages that fit their field", "why_tests_cant": "The outcome depends on the statement at which the interrupt falls into log() or log_dequeue(); tests call the functions one after another.", "anchors": ["src/log.c:25-79", "src/comm/comm_serial.c:22-36", "src/ui.c:196-213"]}
{"id": "C71", "title": "Polyphony under dynamic assignment", "statement": "Under dynamic assignment with every voice open to every MIDI channel, while at most nine keys of melodic channels are down each of them sounds on exactly one of the nine tone voices and nothing else sounds; an FM channel is keyed exactly while its voice sounds (tuned pitch 11 to 106). In either mapping mode a voice sounds only a key that is down.", "quantifier": "all starting states, all set-ups, all performances (any MIDI channels, keys, order of presses and releases, controllers, programs, bends, frames)", "why_tests_cant": "Which voice a note gets depends on the whole history of presses and releases on all MIDI channels; tests try a few chords.", "anchors": ["src/midi.c:201-323", "src/midi.c:395-402", "src/midi.c:433-508"]}
{"id": "C72", "title": "The shipped instrument bank sounds", "statement": "With the tables the firmware is built with (128 FM presets, 128 drums, 128 PSG envelopes, 128 sample slots): every field fits its register; every program keyed on an FM voice is audible at every non-zero volume; General MIDI drum keys are audible, in tune with the table and have the sample of their instrument; held PSG notes keep level and pitch, released ones fall silent within half a second.", "quantifier": "All programs, keys, volumes, velocities and histories of messages (with the limits of C60), all ticks.", "why_tests_cant": "Tests use a handful of programs and keys and accept any sample pointer (expect_any), so a shifted table passes them.", "anchors": ["src/presets.c:7-1390", "src/pcm_sample.c:80-107", "src/envelopes.c:4-37", "src/midi_dac.c:4-11"]}
{"id": "C73", "title": "Start-up", "statement": "Start-up registers every handler a build needs exactly once without running out of slots, calls no handler before its module is initialised, and finds the preset memory of a supported cartridge.", "quantifier": "for every build configuration, every content of the cartridge registers, every number of yields, cold and warm starts", "why_tests_cant": "Unit tests set up modules one by one with mocked registers; the order of main.c and the interplay of cartridge detection and preset memory never run.", "anchors": ["src/main.c", "src/scheduler.c: scheduler_addTickHandler, scheduler_addFrameHandler", "src/sram/sram.c: sram_init", "src/comm/comm.c: comm_init", "src/comm/comm_everdrive.c: comm_everdrive_init", "src/comm/comm_everdrive_pro.c: comm_everdrive_pro_init"]}
{"id": "C74", "title": "Cartridge access", "statement": "Preset bytes reach exactly their place in the battery-backed page: every access happens with that page selected, writing allowed when writing, and the frame interrupt off; between calls the program's own page is selected, nothing is writable and interrupts are as before; the LED shows received bytes for at most a frame.", "quantifier": "for both cartridges, every memory content, every history of save, clear, load and LED calls", "why_tests_cant": "The registers do not exist on the test host; unit tests replace the access functions.", "anchors": ["src/sram/sram.c", "src/sram/sram_ed_pro.c", "src/sram/sram_ed_x7.c", "src/comm/everdrive_led.c", "src/sys_wraps.c"]}
{"id": "C75", "title": "Sessions: bytes over time", "statement": "From power-on, whatever way the bytes of MIDI messages are cut into arrivals and whenever frames pass in between, the engine has executed the startup sequence and then exactly the calls of the complete messages in order, with frame ticks in between, and nothing undefined has happened; real-time bytes anywhere do no harm; and the machine never stops reacting.", "quantifier": "for every startup sequence, preset memory, byte stream, fragmentation and interleaving with frames", "why_tests_cant": "Tests feed whole messages to a receiver with a mocked engine; they cannot cover every fragmentation, every interleaving with frames, every interposed real-time byte and every engine state.", "anchors": ["src/main.c", "src/midi_rx.c", "src/scheduler.c", "src/comm/comm.c", "src/midi.c"]}
{"id": "C76", "title": "Bringing up the network", "statement": "The network interface works after start-up exactly if the radio is present, answered, joined an access point, has an address and opened its two ports (5006 and the one after); the radio is asked in order up to the first refusal; a refusal is reported once with its reason, leaves no port open, and from then on no packet is sent or looked at; the address shown is the radio's.", "quantifier": "for every combination of answers of the radio and every later history", "why_tests_cant": "The unit tests mock the radio library and try a few failing calls; they do not cover all combinations, and nothing checks what happens for the rest of the session.", "anchors": ["src/comm/comm_megawifi.c", "src/comm/mw_uart.c", "src/comm/ip_util.c"]}
{"id": "C77", "title": "The program's own memcmp", "statement": "memcmp returns zero exactly if the first count bytes of the regions agree, and otherwise a value whose sign is the lexical order of the regions as unsigned bytes; it reads no byte behind the first difference and none behind count; its uses on received SysEx data stay inside the payload.", "quantifier": "for all regions and counts", "why_tests_cant": "Tests run with the host C library's memcmp, not with this one.", "anchors": ["src/utils.c", "src/midi.c"]}
{"id": "C78", "title": "Released PSG notes fall silent", "statement": "When the engine holds no note on a PSG voice, its chip channel becomes silent (attenuation 15) after at most as many PSG frames as the longest envelope has bytes (256 with the built-in envelopes and any loaded one), whatever other messages arrive meanwhile; with no key down for that time the four PSG channels are silent and no FM channel is keyed.", "quantifier": "for every history of messages, every voice and every continuation that gives the voice no note", "why_tests_cant": "Tests release one note and check a few frames of one envelope; a note that never ends needs a particular mixture of resets, remapping and envelopes.", "anchors": ["src/midi.c", "src/midi_psg.c", "src/envelopes.c"]}
{"id": "C79", "title": "Sample playback", "statement": "Controller 78 puts voice 6 in sample mode (64 and above) or back on FM (below, which also ends a playing sample), and the chip's DAC is on exactly in sample mode. In sample mode a note-on that comes to the voice starts the sample of its key; letting go of the sounding key ends the sample, or starts that of the newest key still held when no other voice of the channel sounds. No other message starts or ends a sample, except a system reset, which ends it.", "quantifier": "for every state the engine reaches, every message, key and MIDI channel", "why_tests_cant": "Tests play one sample on a fresh engine; which of the messages after any history disturb or start one, and whether chip and engine agree on the mode, is beyond them.", "anchors": ["src/midi_dac.c", "src/midi.c", "src/synth.c", "src/pcm_sample.c"]}
{"id": "C80", "title": "The links keep to their hardware registers", "statement": "The links touch only their own registers: the chosen controller port, and an Everdrive's registers only if it has identified itself. A byte is written to a transmitter only after it has said it has room, so none is lost, and read only after the receiver has said one is waiting. Writing puts exactly the given bytes (on the Everdrive Pro behind a header with their number) on the active link and nothing on another, and ends once the device has taken them. The LED register is written only to change the LED.", "quantifier": "for every behaviour of the hardware, every moment of interrupts, both ports, and every sequence of calls after start-up", "why_tests_cant": "Tests expect fixed lists of register accesses against mocks that are always ready, and run no interrupts.", "anchors": ["src/mem.c", "src/comm/serial.c", "src/comm/comm_serial.c", "src/comm/comm_everdrive.c", "src/comm/comm_everdrive_pro.c", "src/comm/everdrive_led.c", "src/comm/comm.c"]}
{"id": "C81", "title": "From the cable to the chips", "statement": "Whatever way the bytes of the messages arrive, and whenever frames pass in between: a voice sounds and an FM channel is keyed only for a key that is down on the cable (the last message about it is a note on with a velocity); with dynamic assignment and at most nine keys of the keyboard down, every key that is down sounds; and when no key is down and the envelopes have run out, both chips are silent.", "quantifier": "for every division of the bytes into arrivals, every placement of frames, every startup sequence and set-up, every performance, every content of the preset memory", "why_tests_cant": "Each test of the project covers one layer with the others mocked; a hanging note needs the receiver, the voice assignment and the chip driver together over a long stream.", "anchors": ["src/midi_rx.c", "src/scheduler.c", "src/midi.c", "src/midi_fm.c", "src/midi_psg.c", "src/synth.c"]}
{"id": "C82", "title": "Sounding FM voices stay in tune", "statement": "Whenever an FM voice sounds, the frequency registers of its chip channel are within 5 cents of the pitch of its note under the bend, the bend range (RPN 0) and the fine tune its MIDI channel has been sent, in whatever order they came relative to the note, through glides, retriggers and every other message; in particular every held key of a chord on an FM voice is keyed and in tune.", "quantifier": "for every history of messages and frames from start-up, every FM voice, every MIDI channel but 10, every content of the preset memory, both clock rates", "why_tests_cant": "Tests send one bend or one range after one note; the pitch on the chip depends on the interleaving of notes, bends, parameter numbers, data entries, glides and voice assignment.", "anchors": ["src/midi.c", "src/midi_fm.c", "src/pitchcents.c", "src/synth.c"]}
{"id": "C83", "title": "Sounding PSG voices stay in tune", "statement": "Whenever a PSG voice sounds and can be heard, the divider of its chip channel is that of its note under the bend, the bend range (RPN 0) and the fine tune its MIDI channel has been sent, shifted by what its envelope asks for at that moment: in whatever order they came relative to the note, through glides, retriggers, volume and program changes and every frame of the envelope. In particular every held key of a chord is in tune on whichever chip it was put.", "quantifier": "for every history of messages and frames from start-up, every PSG voice, every MIDI channel, every set of envelopes, both clock rates", "why_tests_cant": "Tests check one tone after one note or one envelope; the divider depends on the interleaving of notes, bends, data entries, glides and envelope frames, and on the writes the driver leaves out because it believes them unnecessary.", "anchors": ["src/midi.c", "src/midi_psg.c", "src/pitchcents.c"]}
{"id": "C84", "title": "Sounding PSG voices have the level asked for", "statement": "At every moment a PSG channel of the chip is silent (when its voice is off), or has exactly the attenuation a fresh note would have with the volume its MIDI channel was last sent, the velocity of the voice's note and the level its envelope asks for at the point it has reached; in particular a channel at volume 0 is silent.", "quantifier": "for every history of MIDI messages, frames and glide ticks, every PSG voice and every moment", "why_tests_cant": "Volume, notes, program changes, envelope frames, loops and releases interleave in unboundedly many ways and the driver suppresses writes it thinks redundant; a test compares a few levels after a few sequences.", "anchors": ["src/midi_psg.c: apply_envelope_step, effective_attenuation, apply_attenuation, midi_psg_volume, midi_psg_note_on, midi_psg_tick", "src/midi.c: channel_volume, update_device_channel_from_associated_midi_channel, midi_note_on"]}
{"id": "C85", "title": "Sounding FM voices have the program, level and sides of their MIDI channel", "statement": "At every moment, not only when notes begin, an FM voice has on the chip the preset of the program its MIDI channel was last sent, the carriers lowered by the channel's last volume x the velocity of the note-on that struck the voice / 127, and the sides of the channel's last pan; in particular a channel at volume 0 is silent.", "quantifier": "for every history of MIDI messages and ticks, every FM voice and every moment", "why_tests_cant": "Programs, volumes, pans, notes and releases interleave in unboundedly many ways, each is cached at three levels (MIDI channel, device channel, driver), and the driver recomputes levels from what it cached; a test compares registers after a few sequences.", "anchors": ["src/midi.c: channel_volume, channel_pan, midi_program, update_volume, update_pan, update_program, update_device_channel_from_associated_midi_channel, midi_note_on", "src/midi_fm.c: midi_fm_note_on, midi_fm_channel_volume, midi_fm_program, midi_fm_pan, effective_volume", "src/synth.c: synth_volume, synth_preset, synth_stereo, effective_total_level"]}
{"id": "C86", "title": "A chord sounds as it is played", "statement": "In dynamic mode every held key, of up to nine on any MIDI channels, sounds on a voice of its own with the velocity it was struck with and the program, volume, pan and tuning of its MIDI channel, on whichever chip it was put: an FM voice is keyed on with the channel's preset, its carriers lowered by volume x struck velocity / 127, the sides of the pan and the pitch of the key; a PSG voice has the attenuation that volume, struck velocity and envelope ask for and the divider of the key.", "quantifier": "for every history of key presses and releases with up to nine keys down, interleaved with programs, volumes, pans, bends, pedals, ticks and frames", "why_tests_cant": "The voice a key gets depends on the whole history of presses and releases; which velocity, level and sound a voice ends up with is spread over four layers of caches. A test can play a few chords on fresh voices.", "anchors": ["src/midi.c: midi_note_on, midi_note_off, findFreeChannel, update_device_channel_from_associated_midi_channel, channel_volume, channel_pan, midi_program", "src/midi_fm.c: midi_fm_note_on, effective_volume", "src/midi_psg.c: midi_psg_note_on, effective_attenuation", "src/synth.c: synth_volume"]}
{"id": "C87", "title": "A melody sounds as it is played", "statement": "In static mode, on a MIDI channel with one FM voice, the chip's FM channel is keyed on exactly while a key of the channel is down, and plays the key pressed last among those that are down: in tune with the channel's bend and fine tune, with the preset of its program, its carriers lowered by volume x the velocity that key was struck with / 127, and the sides of its pan. On a MIDI channel with one PSG voice the chip's channel has the attenuation of that key under the channel's volume, the velocity it was struck with and the envelope's position, at that key's pitch; after the last key is released it becomes silent within the length of the envelope.", "quantifier": "for every history of key presses and releases of the channel, interleaved with messages for any channels", "why_tests_cant": "The note stack, the remembered velocity, the voice's caches and the chip's key are updated in different functions; which key and velocity sound depends on the whole history of overlapping keys. Tests press two or three keys with equal velocities.", "anchors": ["src/midi.c: midi_note_on, midi_note_off, dev_chan_note_on", "src/note_priority.c", "src/midi_fm.c: midi_fm_note_on, effective_volume", "src/midi_psg.c: midi_psg_note_on, midi_psg_note_off, midi_psg_tick"]}
{"id": "C88", "title": "From the cable to the sound", "statement": "However the bytes of a stream of MIDI messages are cut up on arrival and interleaved with frames, and while the last message may still be incomplete: in static mode a channel's voice sounds exactly the key pressed last among those down on the cable (keyed, in tune, with the velocity of that key, and the channel's program, volume and pan as last sent); in dynamic mode every key that is down on the cable sounds in that way on a voice of its own.", "quantifier": "for every startup sequence, every sequence of well-formed messages on the cable, every way their bytes arrive between frames, and every content of uninitialised buffers", "why_tests_cant": "The statement joins the transport, the byte-wise receiver, the message dispatcher, voice allocation and both chip drivers. Tests feed whole messages to one layer with the next one mocked, so no test sees bytes at one end and chip registers at the other.", "anchors": ["src/midi_rx.c", "src/comm/comm.c", "src/midi.c: midi_note_on, midi_note_off", "src/midi_fm.c", "src/midi_psg.c", "src/synth.c", "src/scheduler.c"]}
{"id": "C89", "title": "Envelopes sent by exclusive message", "statement": "An envelope sent in the system exclusive message 00 22 77 06, each byte as two halves, is stored byte for byte with an end mark behind it and stays the one in use, whatever is played or sent later, until another one is sent or the system is reset, which puts the envelopes of the programs back in use; every PSG note begun from then on begins with its first byte (after a loop mark, if there is one), in tone shift and attenuation, whatever the program of its MIDI channel.", "quantifier": "for every history before and after the message, every list of envelope bytes other than the end mark that fits a message, every note", "why_tests_cant": "The unit test sends a message of one byte to a mocked PSG driver and checks the call; the end-to-end test sends one byte too. Neither sees longer envelopes, later messages, nor the chip.", "anchors": ["src/midi.c: load_psg_envelope, midi_sysex", "src/midi_psg.c: midi_psg_load_envelope, midi_psg_note_on", "src/midi.h: SYSEX_COMMAND_LOAD_PSG_ENVELOPE"]}
