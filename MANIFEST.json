{
 "claims": [
  {
   "property": "C01",
   "status": "proved",
   "theorems": [
    "Mdmi.Props.C01_framing",
    "Mdmi.Props.C01_engine",
    "Mdmi.Props.C01_arrival",
    "Mdmi.Props.C01_incomplete"
   ],
   "note": ""
  },
  {
   "property": "C02",
   "status": "proved",
   "theorems": [
    "Mdmi.Props.C02_reading",
    "Mdmi.Props.C02_contained"
   ],
   "note": ""
  },
  {
   "property": "C03",
   "status": "proved",
   "theorems": [
    "Mdmi.Props.C03_no_effect",
    "Mdmi.Props.C03_mixed",
    "Mdmi.Props.C03_every_byte"
   ],
   "note": ""
  },
  {
   "property": "C04",
   "status": "partial",
   "theorems": [
    "Mdmi.Props.C04_violated",
    "Mdmi.Props.C04_violated_effect",
    "Mdmi.Props.C04_violated_channel_message",
    "Mdmi.Props.C04_kept_as_payload",
    "Mdmi.Props.C04_between_messages_partial"
   ],
   "note": "Violated: a real-time byte inside a message becomes payload (or a data byte). Transparent between messages."
  },
  {
   "property": "C05",
   "status": "partial",
   "theorems": [
    "Mdmi.Props.C05_no_ub_partial",
    "Mdmi.Props.C05_no_indeterminate_read_partial",
    "Mdmi.Props.C05_violated_dac",
    "Mdmi.Props.C05_violated_envelope"
   ],
   "note": "Proved for every history that does not both switch channel 6 to samples and detune, and for every system exclusive message but odd-length envelopes; two witnesses show what goes wrong otherwise."
  },
  {
   "property": "C06",
   "status": "proved",
   "theorems": [
    "Mdmi.Props.C06_ignored",
    "Mdmi.Props.C06_unobservable"
   ],
   "note": "Every payload outside the command table leaves the engine as it was, and no later history can tell."
  },
  {
   "property": "C07",
   "status": "proved",
   "theorems": [
    "Mdmi.Props.C07_step",
    "Mdmi.Props.C07_map_always_valid"
   ],
   "note": "Map validity from boot after every history, and from any valid state for every call."
  },
  {
   "property": "C08",
   "status": "proved",
   "theorems": [
    "Mdmi.Props.C08_other_voices_kept",
    "Mdmi.Props.C08_other_voices_keep_sounding",
    "Mdmi.Props.C08_idle_voice_first",
    "Mdmi.Props.C08_idle_voice_first_chip",
    "Mdmi.Props.C08_placed"
   ],
   "note": "Every state for the voices left alone; every reachable state for the chips."
  },
  {
   "property": "C09",
   "status": "partial",
   "theorems": [
    "Mdmi.Props.C09_placement_partial",
    "Mdmi.Props.C09_device_select_partial",
    "Mdmi.Props.C09_violated_square",
    "Mdmi.Props.C09_violated_stick"
   ],
   "note": "The square-wave programs and the sticky assignment override device select (C09_violated_square, C09_violated_stick); the partial theorems exclude exactly these."
  },
  {
   "property": "C10",
   "status": "proved",
   "theorems": [
    "Mdmi.Props.C10_at_most_two",
    "Mdmi.Props.C10_never_on_psg",
    "Mdmi.Props.C10_psg_untouched",
    "Mdmi.Props.C10_always"
   ],
   "note": "The history theorem excludes remaps onto channel 10, which can add a sounding voice by hand (example)."
  },
  {
   "property": "C11",
   "status": "proved",
   "theorems": [
    "Mdmi.Props.C11_calls",
    "Mdmi.Props.C11_bytes"
   ],
   "note": ""
  },
  {
   "property": "C12",
   "status": "partial",
   "theorems": [
    "Mdmi.Props.C12_note_off_releases_partial",
    "Mdmi.Props.C12_reached_note_off_partial",
    "Mdmi.Props.C12_others_kept",
    "Mdmi.Props.C12_other_channels_keep_sounding",
    "Mdmi.Props.C12_not_released"
   ],
   "note": "True unless portamento was switched off while a voice of the channel was gliding: then the voice keeps its old target and the note-off is not recognised (witness C12_not_released ends with a stuck note). Everything else (frame on devices, channels, chips, configuration) is proved without that hypothesis."
  },
  {
   "property": "C13",
   "status": "partial",
   "theorems": [
    "Mdmi.Props.C13_only_held_notes_sound_partial",
    "Mdmi.Props.C13_silent_when_nothing_held_partial",
    "Mdmi.Props.C13_portamento_off_sticks",
    "Mdmi.Props.C13_note_zero_sticks"
   ],
   "note": "Proved for every reset, set-up and performance with a static mapping: a sounding voice plays a key that is down, and a keyed FM channel belongs to a sounding voice. Two conditions on portamento are needed; without them the statement is false in the code (the two negation theorems). Dynamic mode is C71, the fading of released PSG notes C78. Not covered: sample playback."
  },
  {
   "property": "C14",
   "status": "partial",
   "theorems": [
    "Mdmi.Props.C14_release_on_new_channel_partial",
    "Mdmi.Props.C14_remap_strands",
    "Mdmi.Props.C14_mode_strands",
    "Mdmi.Props.C14_polyphonic_strands",
    "Mdmi.Props.C14_reset_controllers_strands"
   ],
   "note": "The code violates the statement: remapping, mode switches, the polyphonic controller and CC 121 strand a sounding note (four witnesses). Proved for every reachable state: a mapping change touches no chip and stops no voice, and a note-off on the MIDI channel the voice belongs to now releases it."
  },
  {
   "property": "C15",
   "status": "partial",
   "theorems": [
    "Mdmi.Props.C15_behaviour",
    "Mdmi.Props.C15_last_note_partial",
    "Mdmi.Props.C15_trill_silences",
    "Mdmi.Props.C15_wrong_note",
    "Mdmi.Props.C15_legato_partial",
    "Mdmi.Props.C15_all_notes_off_resumes"
   ],
   "note": "The code violates last-note priority (a trill over a held key silences the voice; wrong note returned to; keys let go by All Notes Off come back). Proved: the exact behaviour for every history of a one-voice channel, All Notes Off included, and the property for up to ten keys released in reverse order of pressing and for legato playing of any length."
  },
  {
   "property": "C16",
   "status": "proved",
   "theorems": [
    "Mdmi.Props.C16_note_stack_is_bounded_list",
    "Mdmi.Props.C16_never_more_than_ten"
   ],
   "note": "Refinement of a bounded list for every operation sequence."
  },
  {
   "property": "C17",
   "status": "partial",
   "theorems": [
    "Mdmi.Props.C17_all_notes_off_partial",
    "Mdmi.Props.C17_sample_plays_on"
   ],
   "note": "Proved for every reachable state for FM and PSG voices, with the frame for everything else. A voice playing samples is not stopped (witness)."
  },
  {
   "property": "C18",
   "status": "partial",
   "theorems": [
    "Mdmi.Props.C18_forgotten_when_released_partial",
    "Mdmi.Props.C18_old_note_comes_back",
    "Mdmi.Props.C18_new_note_lost"
   ],
   "note": "The code violates the statement: the note stack survives All Notes Off (two witnesses). Proved: releases alone start nothing afterwards, and releasing every remembered key makes the channel fresh."
  },
  {
   "property": "C19",
   "status": "partial",
   "theorems": [
    "Mdmi.Props.C19_glide_tick_partial",
    "Mdmi.Props.C19_glide_arrives_partial",
    "Mdmi.Props.C19_low_glide_jumps_up",
    "Mdmi.Props.C19_glide_may_never_end",
    "Mdmi.Props.C19_downward_glide_ends_early"
   ],
   "note": "Proved for glides that stay in range; witnesses show wrap-around below pitch 0, a glide that never ends, and downward glides that end early."
  },
  {
   "property": "C20",
   "status": "partial",
   "theorems": [
    "Mdmi.Props.C20_bend_exact_partial",
    "Mdmi.Props.C20_centre_is_neutral",
    "Mdmi.Props.C20_bend_monotone_partial",
    "Mdmi.Props.C20_low_bend_wraps",
    "Mdmi.Props.C20_high_bend_wraps",
    "Mdmi.Props.C20_bend_message_retunes_partial",
    "Mdmi.Props.C20_bend_moves_drums",
    "Mdmi.Props.C20_bend_reaches_all_partial",
    "Mdmi.Props.C55_voice_bend_is_channels",
    "Mdmi.Props.C55_violated_remapped"
   ],
   "note": "Exact when the bent pitch stays in 0..255; witnesses show the wrap-around outside. A bend message retunes every sounding FM and special-mode voice of the channel in every history; a voice that was remapped keeps a bend of its old channel (C55_violated_remapped)."
  },
  {
   "property": "C21",
   "status": "partial",
   "theorems": [
    "Mdmi.Props.C21_in_range_and_in_tune",
    "Mdmi.Props.C21_monotone",
    "Mdmi.Props.C21_octave_is_a_block",
    "Mdmi.Props.C21_note_on_sounds_the_pitch",
    "Mdmi.Props.C21_percussion_sounds_its_key",
    "Mdmi.Props.C21_pitch_retunes",
    "Mdmi.Props.C21_bend_beyond_the_range_goes_the_wrong_way",
    "Mdmi.Props.C21_violated",
    "Mdmi.Props.C21_not_strict_per_cent"
   ],
   "note": "In-range, in-tune (5 cents), monotone and octave = block proved for keys 11..106 for every history; strictness per cent and bends beyond the table are false and refuted with witnesses."
  },
  {
   "property": "C22",
   "status": "partial",
   "theorems": [
    "Mdmi.Props.C22_key_tone_is_exact",
    "Mdmi.Props.C22_between_neighbours_partial",
    "Mdmi.Props.C22_higher_pitch_smaller_tone_partial",
    "Mdmi.Props.C22_tones_written_are_ten_bits",
    "Mdmi.Props.C22_pitch_reaches_chip",
    "Mdmi.Props.C22_top_pitch_wraps"
   ],
   "note": "Exact equal-tempered dividers for every key, 10-bit tones in every history, effect on the chip. Between-neighbours and order hold for pitch < 255 only; the witness shows pitch 255 wraps."
  },
  {
   "property": "C23",
   "status": "partial",
   "theorems": [
    "Mdmi.Props.C23_curve",
    "Mdmi.Props.C23_chip_levels_partial",
    "Mdmi.Props.C23_louder_request_is_not_quieter_partial",
    "Mdmi.Props.C23_volume_zero_is_audible_after_algorithm_change",
    "Mdmi.Props.C23_violated"
   ],
   "note": "Holds for every history without a call that leaves total levels stale (algorithm change, special-mode volume); refuted otherwise with a witness."
  },
  {
   "property": "C24",
   "status": "proved",
   "theorems": [
    "Mdmi.Props.C24_attenuation_in_range",
    "Mdmi.Props.C24_loudness_monotone",
    "Mdmi.Props.C24_loudness_ends",
    "Mdmi.Props.C24_volume_during_note"
   ],
   "note": "All legal histories for the range; observed chip attenuation for monotonicity and end points."
  },
  {
   "property": "C25",
   "status": "proved",
   "theorems": [
    "Mdmi.Props.C25_envelope_memory_safe",
    "Mdmi.Props.C25_unterminated_envelope_is_undefined",
    "Mdmi.Props.C25_builtin_envelopes_legal"
   ],
   "note": "No undefined behaviour in any legal history; the END-byte precondition is shown necessary."
  },
  {
   "property": "C26",
   "status": "proved",
   "theorems": [
    "Mdmi.Props.C26_release_terminates",
    "Mdmi.Props.C26_held_note_course",
    "Mdmi.Props.C26_released_note_course",
    "Mdmi.Props.C26_envelope_shift"
   ],
   "note": "Release always ends, whatever happens elsewhere, including loading over the playing envelope; exact course of held and released attack/loop/tail envelopes."
  },
  {
   "property": "C27",
   "status": "partial",
   "theorems": [
    "Mdmi.Props.C27_chip_matches_cache_partial",
    "Mdmi.Props.C27_reset_leaves_note_sounding"
   ],
   "note": "Holds for every history without a driver reset; the reset is shown to leave a note sounding while the cache says silent."
  },
  {
   "property": "C28",
   "status": "partial",
   "theorems": [
    "Mdmi.Props.C28_timbre",
    "Mdmi.Props.C28_globals",
    "Mdmi.Props.C28_keys_and_frequency",
    "Mdmi.Props.C28_reported_frequency_partial",
    "Mdmi.Props.C28_total_levels_partial",
    "Mdmi.Props.C28_algorithm_change_leaves_levels_stale",
    "Mdmi.Props.C28_special_mode_note_leaves_level_stale",
    "Mdmi.Props.C28_preset_forgets_frequency"
   ],
   "note": "Timbre, globals, keys and chip frequency proved for all histories of legal driver calls (chip = last requested = reported). Total levels proved unless the algorithm was changed or a special-mode volume was written since the last preset load; those cases and the reported frequency after a preset load violate the property (witnesses)."
  },
  {
   "property": "C29",
   "status": "proved",
   "theorems": [
    "Mdmi.Props.C29_writes_only_own_registers",
    "Mdmi.Props.C29_other_channels_unchanged",
    "Mdmi.Props.C29_registers_distinct"
   ],
   "note": "For arbitrary driver states, all calls and arguments; register map of the data sheet in Spec/Synth."
  },
  {
   "property": "C30",
   "status": "partial",
   "theorems": [
    "Mdmi.Props.C30_own_voices_partial",
    "Mdmi.Props.C30_parameter_leaks",
    "Mdmi.Props.C30_lfo",
    "Mdmi.Props.C30_percussion_leaks"
   ],
   "note": "Proved for notes, bends, programs and per-channel controllers; controllers of the whole chip and FM parameters on non-FM voices violate it (C30_lfo, C30_parameter_leaks, C30_percussion_leaks)."
  },
  {
   "property": "C31",
   "status": "partial",
   "theorems": [
    "Mdmi.Props.C31_program_partial",
    "Mdmi.Props.C31_keeps_stereo",
    "Mdmi.Props.C31_same_program",
    "Mdmi.Props.C31_violated"
   ],
   "note": "A program change that differs from the one the voice already has loads the stored or built-in preset on every FM voice of the channel, keeping stereo. Missing: a program equal to the cached one is not reloaded (C31_violated), and a voice playing samples drops it."
  },
  {
   "property": "C32",
   "status": "proved",
   "theorems": [
    "Mdmi.Props.C32_store_then_dump",
    "Mdmi.Props.C32_clear_then_dump",
    "Mdmi.Props.C32_other_programs",
    "Mdmi.Props.C32_channel_dump",
    "Mdmi.Props.C32_other_types_refused",
    "Mdmi.Props.C32_channel_dump_refused",
    "Mdmi.Props.C32_controller_stores",
    "Mdmi.Props.C32_controller_stores_nothing"
   ],
   "note": "Over every history: a stored preset (masked to its fields) is what a later dump reports, a cleared one reports the built-in preset, other programs are untouched, and a channel dump reports what the chip holds."
  },
  {
   "property": "C33",
   "status": "partial",
   "theorems": [
    "Mdmi.Props.C33_violated",
    "Mdmi.Props.C33_engine_restart_partial",
    "Mdmi.Props.C33_restart_preserves_presets_partial",
    "Mdmi.Props.C33_stored_preset_after_restart_partial",
    "Mdmi.Props.C33_cleared_preset_after_restart_partial",
    "Mdmi.Props.C33_channel_sound_after_restart_partial"
   ],
   "note": "If the preset memory is in use, user presets survive a restart for every history (FM device and whole engine; ideal SRAM). The program as a whole violates it: after switching on, start-up never finds the memory (C33_violated, C73)."
  },
  {
   "property": "C34",
   "status": "partial",
   "theorems": [
    "Mdmi.Props.C34_burst_detected",
    "Mdmi.Props.C34_flips_detected",
    "Mdmi.Props.C34_crash_confined",
    "Mdmi.Props.C34_clear_atomic",
    "Mdmi.Props.C34_store_atomic_partial",
    "Mdmi.Props.C34_torn_store_loads_mixture",
    "Mdmi.Props.C34_crash_revives_cleared_preset"
   ],
   "note": "Burst and small bit-flip corruption is detected, a crash is confined to the slot being written, clear is atomic. Not true in general: a torn store can load a mixture with an equal checksum, and a crash early in a store can revive a cleared preset (both proved by witness)."
  },
  {
   "property": "C35",
   "status": "proved",
   "theorems": [
    "Mdmi.Props.C35_ping",
    "Mdmi.Props.C35_ping_on_the_wire"
   ],
   "note": "Every ping gets exactly one pong and changes nothing else; also stated at the byte level from the receiver to the transmitter."
  },
  {
   "property": "C36",
   "status": "proved",
   "theorems": [
    "Mdmi.Props.C36_raw_write",
    "Mdmi.Props.C36_wrong_length"
   ],
   "note": "Raw writes put exactly the requested byte into exactly the requested register and nothing else happens; wrong lengths do nothing."
  },
  {
   "property": "C37",
   "status": "partial",
   "theorems": [
    "Mdmi.Props.C37_parameter_partial",
    "Mdmi.Props.C37_total_level_partial",
    "Mdmi.Props.C37_gated_partial",
    "Mdmi.Props.C37_lfo",
    "Mdmi.Props.C37_sustain_rate_violated",
    "Mdmi.Props.C37_special_mode_not_gated"
   ],
   "note": "Proved for all controllers, values and states without raw writes, and for gating; violated by the sustain rate (scaled to 16 of 32 settings) and by controllers 80, 84, 87, which are not gated; levels exclude the algorithm controller and FM channel 3."
  },
  {
   "property": "C38",
   "status": "partial",
   "theorems": [
    "Mdmi.Props.C38_pan_always_partial",
    "Mdmi.Props.C38_pan_applies_partial",
    "Mdmi.Props.C38_full_fails",
    "Mdmi.Props.C38_fails_after_samples"
   ],
   "note": "For a voice whose history has no direct stereo controller (CC 77), samples or remapping, the pan in the chip is the pan of its MIDI channel's history; the unrestricted statement is refuted twice with concrete histories."
  },
  {
   "property": "C39",
   "status": "partial",
   "theorems": [
    "Mdmi.Props.C39_reset_partial",
    "Mdmi.Props.C39_like_power_on",
    "Mdmi.Props.C39_fm_chip_partial",
    "Mdmi.Props.C39_user_presets",
    "Mdmi.Props.C39_psg_untouched",
    "Mdmi.Props.C39_violated"
   ],
   "note": "The state, the FM chip and the stored presets after a reset are proved; the statement fails for the PSG (reset writes nothing to it) and for a preset stored as program 0, with witnesses."
  },
  {
   "property": "C40",
   "status": "partial",
   "theorems": [
    "Mdmi.Props.C40_other_channels_partial",
    "Mdmi.Props.C40_default_mapping_partial",
    "Mdmi.Props.C40_preference_partial",
    "Mdmi.Props.C40_own_voices",
    "Mdmi.Props.C40_keys",
    "Mdmi.Props.C40_violated"
   ],
   "note": "Exact effect of controller 121 on channels, voices, configuration and chips; the statement itself fails (remaps every voice, replaces the Auto preference, strands notes), with witnesses."
  },
  {
   "property": "C41",
   "status": "proved",
   "theorems": [
    "Mdmi.Props.C41_every_write_owns_the_bus",
    "Mdmi.Props.C41_each_call_restores_the_bus",
    "Mdmi.Props.C41_busOk_meaning"
   ],
   "note": "All histories from either bus state, any arguments; and each single call from any state with the bus held whenever the DAC is off."
  },
  {
   "property": "C42",
   "status": "proved",
   "theorems": [
    "Mdmi.Props.C42_ring_is_bounded_fifo",
    "Mdmi.Props.C42_rejected_init_is_inert"
   ],
   "note": "Refinement of the ring buffer (ring_buf.c) to a bounded FIFO queue over every operation sequence."
  },
  {
   "property": "C43",
   "status": "proved",
   "theorems": [
    "Mdmi.Props.C43_interleaved_ring_is_fifo",
    "Mdmi.Props.C43_delivered_is_prefix_of_accepted",
    "Mdmi.Props.C43_nothing_is_lost",
    "Mdmi.Props.C43_uninterrupted_write_agrees",
    "Mdmi.Props.C43_uninterrupted_read_agrees"
   ],
   "note": "Every interleaving of one writer and one reader, at the granularity of the individual memory accesses, refines a bounded FIFO."
  },
  {
   "property": "C44",
   "status": "partial",
   "theorems": [
    "Mdmi.Props.C44_serial_receive_partial",
    "Mdmi.Props.C44_interrupt_accepts_what_fits",
    "Mdmi.Props.C44_poll_delivers_oldest",
    "Mdmi.Props.C44_early_interrupt_is_undefined",
    "Mdmi.Props.C44_startup_discards_stale_bytes"
   ],
   "note": "Full statement holds once the receive callback is registered. Missing: an interrupt between serial_init and serial_setReadyToReceiveCallback calls a null pointer (witness theorem)."
  },
  {
   "property": "C45",
   "status": "proved",
   "theorems": [
    "Mdmi.Props.C45_source_is_sticky",
    "Mdmi.Props.C45_source_never_changes",
    "Mdmi.Props.C45_first_ready_source_is_chosen",
    "Mdmi.Props.C45_counting",
    "Mdmi.Props.C45_output_goes_to_source",
    "Mdmi.Props.C45_mode_is_discovery_until_found",
    "Mdmi.Props.C45_undefined_only_when_writing_first",
    "Mdmi.Props.C45_write_before_selection_is_undefined"
   ],
   "note": "All histories of polls, reads, writes and counter resets. Writing before a source is selected is undefined behaviour, and that is shown to be the only such case."
  },
  {
   "property": "C46",
   "status": "proved",
   "theorems": [
    "Mdmi.Props.C46_log_keeps_newest",
    "Mdmi.Props.C46_undrained_log_keeps_nine_newest",
    "Mdmi.Props.C46_long_message_is_undefined"
   ],
   "note": "Message text is bounded by the buffer; longer text is an explicit undefined outcome."
  },
  {
   "property": "C47",
   "status": "partial",
   "theorems": [
    "Mdmi.Props.C47_frames_add_up_partial",
    "Mdmi.Props.C47_handlers_agree_partial",
    "Mdmi.Props.C47_uninterrupted_tick",
    "Mdmi.Props.C47_blank_during_handlers_is_lost",
    "Mdmi.Props.C47_handler_tables"
   ],
   "note": "Frames add up when no vertical blank arrives while frame handlers run; a witness shows that such a blank is lost."
  },
  {
   "property": "C48",
   "status": "partial",
   "theorems": [
    "Mdmi.Props.C48_decode_partial",
    "Mdmi.Props.C48_long_list_rejected",
    "Mdmi.Props.C48_short_packet_rejected",
    "Mdmi.Props.C48_violated",
    "Mdmi.Props.C48_overread",
    "Mdmi.Props.C48_segments",
    "Mdmi.Props.C48_segments_violated"
   ],
   "note": "Decoding proved for every legal list of fewer than 256 bytes without single-byte messages (but reset) and without running status behind longer delta times; the full statement fails, with witnesses, also over-reads of truncated packets; lists of 256 bytes and more are always rejected; exclusive messages in segments are cut off after the first segment, proved for all data."
  },
  {
   "property": "C49",
   "status": "partial",
   "theorems": [
    "Mdmi.Props.C49_layout",
    "Mdmi.Props.C49_refused",
    "Mdmi.Props.C49_round_trip_partial",
    "Mdmi.Props.C49_own_messages",
    "Mdmi.Props.C49_long_not_decoded",
    "Mdmi.Props.C49_violated"
   ],
   "note": "Layout, sequence numbers, bounds and refusal proved; decoding back proved below 256 bytes and refuted from 256 on; buffers of fewer than 12 bytes are overrun."
  },
  {
   "property": "C50",
   "status": "partial",
   "theorems": [
    "Mdmi.Props.C50_invitation",
    "Mdmi.Props.C50_clock_request",
    "Mdmi.Props.C50_other_clock_packets",
    "Mdmi.Props.C50_control_port",
    "Mdmi.Props.C50_midi_port",
    "Mdmi.Props.C50_invitation_answered",
    "Mdmi.Props.C50_clock_answered",
    "Mdmi.Props.C50_feedback",
    "Mdmi.Props.C50_feedback_due",
    "Mdmi.Props.C50_answer_lost",
    "Mdmi.Props.C50_short_packet_ends_session",
    "Mdmi.Props.C50_malformed_packet_overread",
    "Mdmi.Props.C50_sequence_zero_not_acknowledged"
   ],
   "note": "Packet level complete (every invitation and clock request, and only those, is answered; the second time stamp loses the carry). In the running driver the answer goes back to the sender if the transmit slot is free, and feedback always carries the last sequence number; refuted in general: answers are lost while another packet waits, packets of 2-3 bytes run the command left in the buffer, an unfinished system exclusive message over-reads the buffer, sequence number 0 is not acknowledged."
  },
  {
   "property": "C51",
   "status": "proved",
   "theorems": [
    "Mdmi.Props.C51_handed_once",
    "Mdmi.Props.C51_one_at_a_time",
    "Mdmi.Props.C51_buffer_stable",
    "Mdmi.Props.C51_next_tick_hands",
    "Mdmi.Props.C51_processed_once",
    "Mdmi.Props.C51_next_tick_processes",
    "Mdmi.Props.C51_no_overwrite",
    "Mdmi.Props.C51_destination"
   ],
   "note": "For every interleaving of ticks, writes and radio callbacks in which the radio completes only what it was asked to do."
  },
  {
   "property": "C52",
   "status": "proved",
   "theorems": [
    "Mdmi.Props.C52_messages",
    "Mdmi.Props.C52_button",
    "Mdmi.Props.C52_opposite_directions_tear",
    "Mdmi.Props.C52_two_buttons_repeat_every_frame"
   ],
   "note": "For every joypad history without opposite directions and a receiver that has read everything before each frame: the byte stream is complete well-formed messages with keys 11..106 and programs 0..127, at most one key sounds, nothing is lost; exact messages of a held button. Without the restriction on the pad it is false (witness)."
  },
  {
   "property": "C53",
   "status": "partial",
   "theorems": [
    "Mdmi.Props.C53_ip_text_partial",
    "Mdmi.Props.C53_bad_octets",
    "Mdmi.Props.C53_two_addresses_same_text"
   ],
   "note": "False for octets 100-109 and 200-209 (the zero tens digit is dropped); proved for all other addresses, and all excluded octets are shown to be wrong."
  },
  {
   "property": "C54",
   "status": "proved",
   "theorems": [
    "Mdmi.Props.C54_read_returns_next_bytes",
    "Mdmi.Props.C54_completed_read",
    "Mdmi.Props.C54_read_progress",
    "Mdmi.Props.C54_write_framing",
    "Mdmi.Props.C54_bytewise_send"
   ],
   "note": "Every arrival schedule and every message. The FIFO status register is assumed to hold the count modulo 2048."
  },
  {
   "property": "C55",
   "status": "partial",
   "theorems": [
    "Mdmi.Props.C55_range_follows_history",
    "Mdmi.Props.C55_other_parameters_do_nothing",
    "Mdmi.Props.C55_range_retunes_partial",
    "Mdmi.Props.C55_range_reaches_all_partial",
    "Mdmi.Props.C55_voice_bend_is_channels",
    "Mdmi.Props.C55_violated_remapped",
    "Mdmi.Props.C55_violated_remapped_range"
   ],
   "note": "Range after any history; other registered parameters change nothing; in every history the voices of the channel that the FM chip plays (special-mode operators and remapped ones included) are retuned within 5 cents for the bend the voice was last told, which is the channel's unless the voice was remapped (PSG: C61). False for remapped voices (witnesses). Missing: bends beyond the chip's range (C20)."
  },
  {
   "property": "C56",
   "status": "proved",
   "theorems": [
    "Mdmi.Props.C56_load_meter"
   ],
   "note": "Every history of frame updates."
  },
  {
   "property": "C57",
   "status": "proved",
   "theorems": [
    "Mdmi.Props.C57_only_its_registers",
    "Mdmi.Props.C57_distinct_registers",
    "Mdmi.Props.C57_in_tune",
    "Mdmi.Props.C57_level",
    "Mdmi.Props.C57_velocity_monotone"
   ],
   "note": ""
  },
  {
   "property": "C58",
   "status": "partial",
   "theorems": [
    "Mdmi.Props.C58_preset_memory_inverts_the_bus",
    "Mdmi.Props.C58_write_without_the_bus",
    "Mdmi.Props.C58_violated",
    "Mdmi.Props.C58_writes_own_the_bus_partial",
    "Mdmi.Props.C58_sample_with_dac_off",
    "Mdmi.Props.C58_writesOwned_meaning"
   ],
   "note": "The code violates this: for every state, a store or clear inverts bus ownership (sram_enable keeps the return value of Z80_getAndRequestBus, which is true when the bus was already taken, and sram_disable releases when it is true), and samples with the DAC off release a bus that is then written without. Proved for histories without preset writes and with samples only while the DAC is enabled."
  },
  {
   "property": "C59",
   "status": "proved",
   "theorems": [
    "Mdmi.Props.C59_runs",
    "Mdmi.Props.C59_boot",
    "Mdmi.Props.C59_system_reset",
    "Mdmi.Props.C59_reset_inside_never_ends",
    "Mdmi.Props.C59_depth",
    "Mdmi.Props.C59_truncated_dies"
   ],
   "note": ""
  },
  {
   "property": "C60",
   "status": "partial",
   "theorems": [
    "Mdmi.Props.C60_note_plays_partial",
    "Mdmi.Props.C60_drum_plays_partial"
   ],
   "note": "FM voices, ordinary messages (no FM parameter controllers, stores, raw writes or resets; drums or remapping but not both). Missing: other histories (false there, C31, C38), total levels of channel 3 when special-mode voices are played (false, C85_violated_special_voice), pitches FM cannot play, PSG voices (C61)."
  },
  {
   "property": "C61",
   "status": "partial",
   "theorems": [
    "Mdmi.Props.C61_pictures_agree",
    "Mdmi.Props.C61_writes_legal",
    "Mdmi.Props.C61_some_voice_plays_partial",
    "Mdmi.Props.C61_bend_retunes_partial",
    "Mdmi.Props.C61_range_retunes_partial",
    "Mdmi.Props.C61_note_plays_partial",
    "Mdmi.Props.C61_low_notes_are_lost",
    "Mdmi.Props.C61_bent_low_note_stays_lost",
    "Mdmi.Props.C61_bend_reaches_all_partial",
    "Mdmi.Props.C61_range_reaches_all_partial",
    "Mdmi.Props.C61_violated_remapped",
    "Mdmi.Props.C61_only_voice_plays_partial",
    "Mdmi.Props.C61_low_note_leaves_the_old_one"
   ],
   "note": "PSG voices 7-10 of the engine down to the chip, histories without system reset (C39); every note-on that reaches a PSG voice, retriggers included (C61_some_voice_plays_partial). Missing: keys that end up below 45, which the driver drops while the engine takes the voice for sounding (C61_low_notes_are_lost; the key before it goes on sounding, C61_low_note_leaves_the_old_one); pitches beyond the representation (C20). Remapped voices keep a bend of their old channel (C61_violated_remapped)."
  },
  {
   "property": "C62",
   "status": "partial",
   "theorems": [
    "Mdmi.Props.C62_display_never_faults_partial",
    "Mdmi.Props.C62_low_glide_reads_past_the_names",
    "Mdmi.Props.C62_statement_violated"
   ],
   "note": "Engine and display run together; notifications are arbitrary. Violated: a downward portamento between keys below 12 wraps the pitch above 127 and the name table is read out of bounds (witness). Proved for all histories that never switch portamento on or never play a key below 12 (and have no undefined behaviour in the engine, C05)."
  },
  {
   "property": "C63",
   "status": "partial",
   "theorems": [
    "Mdmi.Props.C63_sounding_notes_are_named_partial",
    "Mdmi.Props.C63_A0_is_not_named",
    "Mdmi.Props.C63_key_zero_shows_as_silence",
    "Mdmi.Props.C63_statement_violated"
   ],
   "note": "Proved for every frame of every such history and keys above A0; violated for A0 (shown as ???) and key 0 (shown as silence), with witnesses."
  },
  {
   "property": "C64",
   "status": "partial",
   "theorems": [
    "Mdmi.Props.C64_mapping_is_shown_partial",
    "Mdmi.Props.C64_shown_at_start",
    "Mdmi.Props.C64_all_first_is_not_drawn",
    "Mdmi.Props.C64_statement_violated",
    "Mdmi.Props.C64_voices_are_numbered"
   ],
   "note": "Proved for every assignment except all ten voices on MIDI channel 1, which is compared equal to the never-written cache and not drawn (witness)."
  },
  {
   "property": "C65",
   "status": "partial",
   "theorems": [
    "Mdmi.Props.C65_changes_are_shown_partial",
    "Mdmi.Props.C65_blank_at_first",
    "Mdmi.Props.C65_program_leaves_residue",
    "Mdmi.Props.C65_statement_violated"
   ],
   "note": "Proved for all histories with well-formed messages: text for 150 frames, blank afterwards, blank before the first. Violated in one point: the text of a program change is two cells shorter than that of a controller change and leaves its last two cells standing (witness 'P=5  40')."
  },
  {
   "property": "C66",
   "status": "partial",
   "theorems": [
    "Mdmi.Props.C66_panel_is_current_partial",
    "Mdmi.Props.C66_messages_notify",
    "Mdmi.Props.C66_reset_leaves_the_panel",
    "Mdmi.Props.C66_statement_violated"
   ],
   "note": "Proved for every history in which no system reset follows the opening of the panel: all eight fields, all 44 operator values and the diagram are those of the synthesiser after every frame. A system reset does not notify the display, so the full statement is false (witness)."
  },
  {
   "property": "C67",
   "status": "partial",
   "theorems": [
    "Mdmi.Props.C67_mark_is_right",
    "Mdmi.Props.C67_routing_is_right_partial",
    "Mdmi.Props.C67_routing_follows_once_seen",
    "Mdmi.Props.C67_source_is_shown",
    "Mdmi.Props.C67_waiting_until_found",
    "Mdmi.Props.C67_source_stays",
    "Mdmi.Props.C67_stale_routing",
    "Mdmi.Props.C67_statement_violated"
   ],
   "note": "Special mode mark and source are proved without conditions.  The routing tiles are proved for builds that do not start with dynamic assignment, and for all builds once dynamic assignment lasted five frames.  A build that starts with dynamic assignment and is switched before the first attention to the status line shows stale tiles (witness)."
  },
  {
   "property": "C68",
   "status": "partial",
   "theorems": [
    "Mdmi.Props.C68_log_lines_show_the_page_partial",
    "Mdmi.Props.C68_newest_message_reads",
    "Mdmi.Props.C68_long_message_leaves_a_remnant",
    "Mdmi.Props.C68_statement_violated"
   ],
   "note": "Proved for every cell the text covers, for the first 38 columns, and for the whole line if no message exceeded 34 characters.  The clearing does not reach columns 39 and 40, so longer messages leave remnants (witness: the length complaint about an exclusive message)."
  },
  {
   "property": "C69",
   "status": "partial",
   "theorems": [
    "Mdmi.Props.C69_messages_fit_partial",
    "Mdmi.Props.C69_violation",
    "Mdmi.Props.C69_serial_message_not_logged",
    "Mdmi.Props.C69_stream_messages_fit",
    "Mdmi.Props.C69_preset_messages_fit",
    "Mdmi.Props.C69_log_keeps_messages",
    "Mdmi.Props.C69_empty_read_overflows"
   ],
   "note": "Every log call of the source is in Model/LogText with its text. All fit except one (comm_serial.c:87, 40 characters; C69_violation, C69_empty_read_overflows), and no serial schedule reaches that call. For the engine and the receiver the argument ranges are proved for arbitrary byte streams, for the preset memory for reached states; for the network messages they are assumed from the C types (the channel of two debug traces below 10)."
  },
  {
   "property": "C70",
   "status": "partial",
   "theorems": [
    "Mdmi.Props.C70_safe_interrupts_partial",
    "Mdmi.Props.C70_overrun_out_of_bounds",
    "Mdmi.Props.C70_warning_lost",
    "Mdmi.Props.C70_warning_doubled",
    "Mdmi.Props.C70_not_in_general"
   ],
   "note": "Holds when the interrupt logs outside the statements between choosing an entry and updating the counters (C70_safe_interrupts_partial). Elsewhere it fails: write behind the array, a warning lost and a blank entry shown, a warning shown twice (witness schedules; C70_not_in_general)."
  },
  {
   "property": "C71",
   "status": "partial",
   "theorems": [
    "Mdmi.Props.C71_only_held_notes_sound_partial",
    "Mdmi.Props.C71_every_held_note_sounds",
    "Mdmi.Props.C71_keyed_iff_sounding",
    "Mdmi.Props.C71_held_keys_reach_chip",
    "Mdmi.Props.C71_portamento_note_sticks"
   ],
   "note": "Proved for all performances without portamento: in either mapping mode only held keys sound; under dynamic assignment every held key (up to nine, melodic channels, no all-notes-off, voice group 'all', no stick) sounds on exactly one tone voice; FM channels are keyed exactly while their voices sound. With portamento the statement is false: C71_portamento_note_sticks."
  },
  {
   "property": "C72",
   "status": "partial",
   "theorems": [
    "Mdmi.Props.C72_tables_fit",
    "Mdmi.Props.C72_every_program_heard_partial",
    "Mdmi.Props.C72_drums_heard_partial",
    "Mdmi.Props.C72_psg_holds",
    "Mdmi.Props.C72_psg_release_short",
    "Mdmi.Props.C72_sample_keys",
    "Mdmi.Props.C72_samples_one_key_low",
    "Mdmi.Props.C72_wrong_sample"
   ],
   "note": "Every program and General MIDI drum is audible on FM (as far as C60 reaches), PSG courses are exact; violated for samples: the table is shifted by one key."
  },
  {
   "property": "C73",
   "status": "partial",
   "theorems": [
    "Mdmi.Props.C73_every_handler_once",
    "Mdmi.Props.C73_frame_slots_full",
    "Mdmi.Props.C73_no_handler_too_early",
    "Mdmi.Props.C73_detection",
    "Mdmi.Props.C73_preset_memory_never_found",
    "Mdmi.Props.C73_violated",
    "Mdmi.Props.C73_found_after_warm_restart_partial",
    "Mdmi.Props.C73_nothing_kept"
   ],
   "note": "Handlers and order: proved for all builds and hardware. Preset memory: refuted - midi_init chooses the memory before comm_init looks for the cartridge, so after switching on it is never found and nothing is kept; it is found after a warm restart only."
  },
  {
   "property": "C74",
   "status": "partial",
   "theorems": [
    "Mdmi.Props.C74_save",
    "Mdmi.Props.C74_clear",
    "Mdmi.Props.C74_load",
    "Mdmi.Props.C74_mapping",
    "Mdmi.Props.C74_led",
    "Mdmi.Props.C74_led_missed",
    "Mdmi.Props.C74_horizontal_interrupt_left_on",
    "Mdmi.Props.C74_silent_without_everdrive",
    "Mdmi.Props.C74_refines"
   ],
   "note": "Mapping, placement and refinement of the ideal memory: proved for all histories under the documented mapper behaviour. Not true: the LED misses bytes after a preset access in the same frame, and the horizontal interrupt is left enabled (both proved)."
  },
  {
   "property": "C75",
   "status": "partial",
   "theorems": [
    "Mdmi.Props.C75_session",
    "Mdmi.Props.C75_arrival_irrelevant",
    "Mdmi.Props.C75_any_bytes_partial",
    "Mdmi.Props.C75_violated",
    "Mdmi.Props.C75_violated_elsewhere",
    "Mdmi.Props.C75_incomplete_message_stops_time",
    "Mdmi.Props.C75_handlers_with_whole_messages",
    "Mdmi.Props.C75_freezes",
    "Mdmi.Props.C75_network_packet_freezes",
    "Mdmi.Props.C75_demo_freezes",
    "Mdmi.Props.C75_frame"
   ],
   "note": "C75_session: any fragmentation, any frames: the engine's history is startup sequence, then the calls of the complete messages in order, with ticks in between, and a Reached state. C75_any_bytes_partial: any bytes at all, unless they spell a message outside Safe. Violated: a real-time byte inside a channel message leads to undefined behaviour (C75_violated, C75_violated_elsewhere); an incomplete message stops time (C75_incomplete_message_stops_time), and for sources fed by handlers forever (C75_network_packet_freezes: clock plus program change in one packet; C75_demo_freezes)."
  },
  {
   "property": "C76",
   "status": "partial",
   "theorems": [
    "Mdmi.Props.C76_listening_iff",
    "Mdmi.Props.C76_conversation",
    "Mdmi.Props.C76_ports",
    "Mdmi.Props.C76_warnings",
    "Mdmi.Props.C76_turns",
    "Mdmi.Props.C76_access_point",
    "Mdmi.Props.C76_silent",
    "Mdmi.Props.C76_violated",
    "Mdmi.Props.C76_association_ignored",
    "Mdmi.Props.C76_violated_ports",
    "Mdmi.Props.C76_address_ambiguous"
   ],
   "note": "Proved in full: when the interface works (C76_listening_iff), order and extent of the conversation, ports and texts, warnings, turns of the other handlers, access point and waiting time, silence after a failure. False as stated, with witnesses: joining the access point is not required and its failure not reported (C76_violated; C76_association_ignored shows it decides nothing), the control port stays open if the MIDI port cannot be opened (C76_violated_ports), and the address shown is ambiguous (C76_address_ambiguous, the defect of C53)."
  },
  {
   "property": "C77",
   "status": "proved",
   "theorems": [
    "Mdmi.Props.C77_memcmp",
    "Mdmi.Props.C77_stops_at_difference",
    "Mdmi.Props.C77_reads_all",
    "Mdmi.Props.C77_sysex_heads"
   ],
   "note": "All regions and counts; reads beyond a region are undefined in the model."
  },
  {
   "property": "C78",
   "status": "partial",
   "theorems": [
    "Mdmi.Props.C78_released_voice_falls_silent_partial",
    "Mdmi.Props.C78_keys_up_silence_partial",
    "Mdmi.Props.C78_shipped_frames",
    "Mdmi.Props.C78_violated_reset_controllers",
    "Mdmi.Props.C78_violated_gm_reset"
   ],
   "note": "Proved for all histories without system reset, reset all controllers (121) and GM reset; those make the engine forget notes without releasing them, and there the property is false (C78_violated_reset_controllers, C78_violated_gm_reset, for any number of frames)."
  },
  {
   "property": "C79",
   "status": "partial",
   "theorems": [
    "Mdmi.Props.C79_mode_agrees_partial",
    "Mdmi.Props.C79_nothing_else_touches_samples",
    "Mdmi.Props.C79_switch",
    "Mdmi.Props.C79_note_plays",
    "Mdmi.Props.C79_some_voice_plays",
    "Mdmi.Props.C79_only_voice_plays_partial",
    "Mdmi.Props.C79_note_off",
    "Mdmi.Props.C79_violated_gm_reset",
    "Mdmi.Props.C79_violated_reset_controllers",
    "Mdmi.Props.C79_glide_is_silent",
    "Mdmi.Props.C79_key_without_sample"
   ],
   "note": "Mode agreement holds for histories without reset all controllers and GM reset, which put voice 6 back on FM and leave the DAC on (C79_violated_*); a key without a sample or reached by a glide leaves the previous sample playing (witnesses; part of the note theorems' statements). Histories that combine samples with detuning are excluded (C05: table overrun)."
  },
  {
   "property": "C80",
   "status": "partial",
   "theorems": [
    "Mdmi.Props.C80_known_registers",
    "Mdmi.Props.C80_only_if_present",
    "Mdmi.Props.C80_serial_never_overrun",
    "Mdmi.Props.C80_x7_never_overrun",
    "Mdmi.Props.C80_reads_only_waiting_bytes",
    "Mdmi.Props.C80_serial_reads_only_waiting_bytes_partial",
    "Mdmi.Props.C80_led_changes",
    "Mdmi.Props.C80_write_exact",
    "Mdmi.Props.C80_read_returns_register",
    "Mdmi.Props.C80_serial_setup",
    "Mdmi.Props.C80_baud_rate",
    "Mdmi.Props.C80_write_completes",
    "Mdmi.Props.C80_violated_demo_write_hangs",
    "Mdmi.Props.C80_violated_flush",
    "Mdmi.Props.C80_ready_is_the_status",
    "Mdmi.Props.C80_source_stays",
    "Mdmi.Props.C80_led_shows_traffic",
    "Mdmi.Props.C80_serial_starts_empty",
    "Mdmi.Props.C80_interrupt_empties"
   ],
   "note": "Proved for every session of the register-level model. Missing because the code does not do it: during start-up an interrupt between the look and the read of flush_rrdy makes it read a byte that is not there (C80_violated_flush), so the serial receive rule is proved from the end of start-up on; with the demo active a write never ends. The Everdrive Pro has no room flag for writing, so there is no overrun statement for it; progress is proved without interrupts."
  },
  {
   "property": "C81",
   "status": "partial",
   "theorems": [
    "Mdmi.Props.C81_only_held_keys_partial",
    "Mdmi.Props.C81_keys_up_silence_partial",
    "Mdmi.Props.C81_held_keys_sound"
   ],
   "note": "The receiver (C75), the engine (C71) and the chips (C78) composed, stated on the messages of the wire and the chips alone. Anything may come before a system reset. Full statement: for any messages; it is false with portamento (C71_portamento_note_sticks), with GM reset (C78_violated_gm_reset), and with a tenth key, so the performance excludes these, remapping, raw chip writes and sample playback. The hardware sources only: handler sources with incomplete messages freeze (C75_freezes), with complete messages they behave the same (C75_handlers_with_whole_messages)."
  },
  {
   "property": "C82",
   "status": "partial",
   "theorems": [
    "Mdmi.Props.C82_sounding_voices_in_tune_partial",
    "Mdmi.Props.C82_fine_tune_first_partial",
    "Mdmi.Props.C82_held_keys_in_tune",
    "Mdmi.Props.C82_violated_fine_tune",
    "Mdmi.Props.C82_violated_drum_flag",
    "Mdmi.Props.C82_violated_remapped"
   ],
   "note": "Proved for all histories without remapping, mapping-mode changes, raw register writes and system resets, with the fine tune sent while the voice is silent, and for voice 4 (index 3) without drums in static mode. The fine tune and the drum flag are defects of the code (C82_violated_fine_tune, C82_violated_drum_flag); it also fails for voices remapped while they sound (C82_violated_remapped); system resets are not covered. Pitches must lie in the chip's range (keys 11 to 106)."
  },
  {
   "property": "C83",
   "status": "partial",
   "theorems": [
    "Mdmi.Props.C83_sounding_voices_in_tune_partial",
    "Mdmi.Props.C83_fine_tune_first_partial",
    "Mdmi.Props.C83_held_keys_in_tune",
    "Mdmi.Props.C83_violated_fine_tune",
    "Mdmi.Props.C83_violated_envelope",
    "Mdmi.Props.C83_violated_remapped"
   ],
   "note": "Proved for all histories without remapping, mapping-mode changes and system resets, for pitches from key 45 up, with the fine tune sent while the voice is silent; an envelope loaded under a sounding voice counts from the next frame on. The fine tune and the envelope in between are defects of the code (C83_violated_fine_tune, C83_violated_envelope); notes below key 45 are C61's finding; it also fails for voices remapped while they sound (C83_violated_remapped); system resets are not covered."
  },
  {
   "property": "C84",
   "status": "partial",
   "theorems": [
    "Mdmi.Props.C84_level_partial",
    "Mdmi.Props.C84_level_after_frames",
    "Mdmi.Props.C84_channel_volume_partial",
    "Mdmi.Props.C84_volume_zero_silent",
    "Mdmi.Props.C84_violated_envelope",
    "Mdmi.Props.C84_violated_remapped"
   ],
   "note": "Invariant of the PSG driver over every engine history (same one as C83): while a channel is on, its attenuation is that of its volume, velocity and envelope byte; driver volume = voice volume = last volume sent to the MIDI channel; chip = cache. Stated against an independent reference: the attenuation of a fresh note with these values (C24). False between the arrival of a user envelope during a note and the next frame (C84_violated_envelope); after each frame it holds without that exception (C84_level_after_frames). Missing: system resets (the code leaves notes sounding, C27) and, for the channel's volume, remapping (false: C84_violated_remapped). The velocity is the one the driver was last given."
  },
  {
   "property": "C85",
   "status": "partial",
   "theorems": [
    "Mdmi.Props.C85_sound_partial",
    "Mdmi.Props.C85_struck_partial",
    "Mdmi.Props.C85_levels_partial",
    "Mdmi.Props.C85_volume_zero_silent",
    "Mdmi.Props.C85_violated_remapped",
    "Mdmi.Props.C85_channel_3_alone",
    "Mdmi.Props.C85_violated_special_voice",
    "Mdmi.Props.C85_struck_levels_partial"
   ],
   "note": "At every moment of every ordinary history without remapping: preset of the program, levels, sides (C85_sound_partial); the velocity is that of the note-on that keyed the voice, until it is keyed again (C85_struck_partial, stated with the number of key-on writes seen by the chip); with FM parameter controllers, presets and resets, and on MIDI channel 10: the levels (C85_levels_partial, with the struck velocity C85_struck_levels_partial), silence at volume 0. Missing: remapping (false: C85_violated_remapped), the percussion preset of MIDI channel 10 after the note-on (at the note-on it is C60's), raw writes, algorithm and stereo controllers and samples on the voice (false there: C31, C38), levels of FM channel 3 when special-mode voices are played (false: C85_violated_special_voice; C85_channel_3_alone gives the histories in static mode that do not)."
  },
  {
   "property": "C86",
   "status": "partial",
   "theorems": [
    "Mdmi.Props.C86_chord_partial",
    "Mdmi.Props.C86_violated_low_key"
   ],
   "note": "Every held key of a chord is proved to sound with its struck velocity and its channel's program, volume, pan and tuning, on both chips, for all keyboard histories in dynamic mode. Missing: fine tunes after notes (false, C82), MIDI channel 10, FM parameter controllers, envelopes sent by exclusive messages. False for keys below 45 that are put on the PSG: C86_violated_low_key."
  },
  {
   "property": "C87",
   "status": "partial",
   "theorems": [
    "Mdmi.Props.C87_melody_partial",
    "Mdmi.Props.C87_psg_melody_partial",
    "Mdmi.Props.C87_psg_rest_partial",
    "Mdmi.Props.C87_behaviour",
    "Mdmi.Props.C87_psg_behaviour",
    "Mdmi.Props.C87_violated_resumed_velocity",
    "Mdmi.Props.C87_violated_psg_resumed_velocity"
   ],
   "note": "Proved for legato playing (the key pressed last is released when no other is down) on FM and PSG voices, and for every history of the channel what the code does instead: the key of C15's note stack, with the velocity of the last key pressed. The full statement is false: a key that is resumed has the velocity of a later one (C87_violated_resumed_velocity, C87_violated_psg_resumed_velocity), and may not be resumed at all (C15). All Notes Off on the channel is covered by the behaviour theorems, and by the property's as long as fingers are lifted after it before another key is pressed (otherwise the property is false, C15_all_notes_off_resumes). Not covered: portamento on the channel, FM parameter controllers, loaded PSG envelopes and PSG keys below 45, mapping changes, sample playback, system resets, fine tunes after notes."
  },
  {
   "property": "C88",
   "status": "partial",
   "theorems": [
    "Mdmi.Props.C88_melody_partial",
    "Mdmi.Props.C88_psg_melody_partial",
    "Mdmi.Props.C88_chord_partial"
   ],
   "note": "Composes the session theorem of C75 with C86 and C87: the conclusions are functions of the messages on the cable only (wire), the state is that of the session run on the arrival events. Missing: system resets on the cable (C81 treats them for the keys), and what is excluded in C86 and C87 (MIDI channel 10, portamento, keys pressed after All Notes Off while fingers rest on others, and re-assignment of voices on the melody's channel, where the code violates the property or the theorem has a hypothesis)."
  },
  {
   "property": "C89",
   "status": "partial",
   "theorems": [
    "Mdmi.Props.C89_sent_envelope_is_kept",
    "Mdmi.Props.C89_in_use_iff_sent",
    "Mdmi.Props.C89_note_begins_with_it_partial"
   ],
   "note": "C89_sent_envelope_is_kept is the full storing part: for every history before and after (no later envelope message, no later reset; sample playback or detuning but not both, as in C05) the bytes sent are in use, with the end mark. C89_in_use_iff_sent: after any history, resets included, the user's envelope is in use exactly when one was sent since power-on or the last reset. C89_note_begins_with_it_partial is what a PSG voice that comes to hold a key sounds like afterwards; missing, as in C61: resets anywhere in the history, keys that end up below 45, notes of a key the voice already holds."
  }
 ]
}
