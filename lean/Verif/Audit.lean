import Verif.Props.Actions
import Verif.Props.AlpParse
import Verif.Props.CT
import Verif.Props.Cleanup
import Verif.Props.Clock
import Verif.Props.Codecs
import Verif.Props.Commands
import Verif.Props.ConfigLate
import Verif.Props.Construct
import Verif.Props.Crc
import Verif.Props.Cut
import Verif.Props.CutModem
import Verif.Props.Damage
import Verif.Props.Device
import Verif.Props.DeviceFiles
import Verif.Props.Dll
import Verif.Props.Equality
import Verif.Props.Every
import Verif.Props.Examples
import Verif.Props.Factories
import Verif.Props.FileProgram
import Verif.Props.Flips
import Verif.Props.FlipsModem
import Verif.Props.Gateway
import Verif.Props.GatewayAsync
import Verif.Props.HexText
import Verif.Props.HexTool
import Verif.Props.Interrupt
import Verif.Props.Json
import Verif.Props.Kept
import Verif.Props.Labels
import Verif.Props.Late
import Verif.Props.LateConnect
import Verif.Props.Layouts
import Verif.Props.Length
import Verif.Props.Loss
import Verif.Props.Modem
import Verif.Props.ModemCallers
import Verif.Props.ModemCalls
import Verif.Props.ModemFaults
import Verif.Props.ModemThread
import Verif.Props.ModemWrite
import Verif.Props.Mqtt
import Verif.Props.Nodes
import Verif.Props.PhyStr
import Verif.Props.Print
import Verif.Props.Programs
import Verif.Props.Pushes
import Verif.Props.QueryNodes
import Verif.Props.QueryRun
import Verif.Props.ReceiverWait
import Verif.Props.Recover
import Verif.Props.Retry
import Verif.Props.Schema
import Verif.Props.Senders
import Verif.Props.SerialFrames
import Verif.Props.SerialStream
import Verif.Props.Serialise
import Verif.Props.Series
import Verif.Props.Site
import Verif.Props.Slip
import Verif.Props.SlipModem
import Verif.Props.Stats
import Verif.Props.SystemCommands
import Verif.Props.SystemFiles
import Verif.Props.Tables
import Verif.Props.Throughput
import Verif.Props.ThroughputEnds
import Verif.Props.ThroughputOne
import Verif.Props.ThroughputRun
import Verif.Props.Unique
import Verif.Props.Update
import Verif.Props.UpdateDevice
import Verif.Props.UpdateLate
import Verif.Props.WholeProgram

/-! The axioms each property theorem depends on (printed when building). -/

#print axioms Verif.C19_action_round_trip_partial
#print axioms Verif.C19_action_iff
#print axioms Verif.C19_forward_action_unserialisable
#print axioms Verif.C19_unparseable
#print axioms Verif.C24_success
#print axioms Verif.C24_terminates
#print axioms Verif.C24_nonpositive
#print axioms Verif.C24_unaligned_after_exception
#print axioms Verif.C25_overrun
#print axioms Verif.C25_exact_iff_partial
#print axioms Verif.C26_errors
#print axioms Verif.C26_success_stable
#print axioms Verif.C26_error_stable
#print axioms Verif.C27_refuted
#print axioms Verif.C27_reserialise_partial
#print axioms Verif.C27_same_bytes_partial
#print axioms Verif.C03_compress_tightest
#print axioms Verif.C03_compress_none
#print axioms Verif.C03_compress_negative
#print axioms Verif.C03_compress_lossless
#print axioms Verif.C03_compress_monotone
#print axioms Verif.C04_ct_accepts
#print axioms Verif.C04_ct_round_trip
#print axioms Verif.C04_ct_every_byte
#print axioms Verif.C05_compress_floor_bounds
#print axioms Verif.C05_floor_not_largest
#print axioms Verif.C05_floor_largest_partial
#print axioms Verif.Modem.C112_off
#print axioms Verif.Modem.C112_same_tag_refuted
#print axioms Verif.Modem.C112_safe
#print axioms Verif.Modem.C101_refines
#print axioms Verif.Modem.C101_not_early_partial
#print axioms Verif.Modem.C101_gives_up_partial
#print axioms Verif.Modem.C101_before_timeout_partial
#print axioms Verif.Modem.C101_answered
#print axioms Verif.Modem.C101_ends_partial
#print axioms Verif.Modem.C101_noticed
#print axioms Verif.Modem.C101_steps_partial
#print axioms Verif.Modem.C101_goes_on
#print axioms Verif.Modem.C101_forward_refuted
#print axioms Verif.Modem.C101_back_refuted
#print axioms Verif.C06_channel_header
#print axioms Verif.C06_channel_id_accepts
#print axioms Verif.C06_channel_id
#print axioms Verif.C06_subband_accepts
#print axioms Verif.C06_subband
#print axioms Verif.C06_channel_status_identifier_accepts
#print axioms Verif.C06_channel_status_identifier
#print axioms Verif.C08_file_permissions
#print axioms Verif.C08_file_permissions_injective
#print axioms Verif.C08_file_properties
#print axioms Verif.C08_file_header_accepts
#print axioms Verif.C08_file_header
#print axioms Verif.C08_file_header_operand
#print axioms Verif.C08_file_header_operand_accepts
#print axioms Verif.C09_addressee_accepts
#print axioms Verif.C09_addressee_round_trip_partial
#print axioms Verif.C09_addressee_reread
#print axioms Verif.C09_addressee_round_trip_iff
#print axioms Verif.C09_nbid_not_preserved
#print axioms Verif.C10_qos
#print axioms Verif.C10_configuration_round_trip_partial
#print axioms Verif.C10_configuration_round_trip_iff
#print axioms Verif.C11_status_accepts
#print axioms Verif.C11_status_round_trip_partial
#print axioms Verif.C11_status_high_rx_level
#print axioms Verif.C11_status_round_trip_iff
#print axioms Verif.C12_offset_accepts
#print axioms Verif.C12_offset
#print axioms Verif.C12_data_request_accepts
#print axioms Verif.C12_data_request
#print axioms Verif.C12_data_accepts
#print axioms Verif.C12_data
#print axioms Verif.C13_query_partial
#print axioms Verif.C13_query_round_trip_iff
#print axioms Verif.C13_query_serialises
#print axioms Verif.C13_query_accepts
#print axioms Verif.C14_abp
#print axioms Verif.C14_otaa
#print axioms Verif.C14_interface_configuration
#print axioms Verif.C20_command_round_trip_partial
#print axioms Verif.C20_interface_status_lost
#print axioms Verif.Modem.C111_profile_safe
#print axioms Verif.Modem.C111_factory_safe
#print axioms Verif.Modem.C111_phy_safe
#print axioms Verif.Modem.C111_engineering_safe
#print axioms Verif.Modem.C111_profile
#print axioms Verif.Modem.C111_factory
#print axioms Verif.Modem.C111_phy
#print axioms Verif.Modem.C111_engineering
#print axioms Verif.Modem.C111_endless
#print axioms Verif.Modem.C111_ends_refuted
#print axioms Verif.C21_refuses
#print axioms Verif.C21_accepts
#print axioms Verif.C21_d7asp_status
#print axioms Verif.C21_none
#print axioms Verif.Serial.C33_burst
#print axioms Verif.Serial.C33_single_bit
#print axioms Verif.Serial.C33_odd
#print axioms Verif.Serial.C33_two_bits
#print axioms Verif.Serial.C33_rejected
#print axioms Verif.Serial.C33_skipped
#print axioms Verif.Serial.C100_line_partial
#print axioms Verif.Serial.C100_waits
#print axioms Verif.Serial.C100_beginning
#print axioms Verif.Serial.C100_end
#print axioms Verif.Serial.C100_mixed_refuted
#print axioms Verif.Modem.C100_received_partial
#print axioms Verif.Modem.C100_peer_partial
#print axioms Verif.Serial.C97_refused_partial
#print axioms Verif.Serial.C97_skipped_partial
#print axioms Verif.Serial.C97_counter
#print axioms Verif.Serial.C97_counter_shows
#print axioms Verif.Serial.C97_type_refuted
#print axioms Verif.Serial.C97_length
#print axioms Verif.Serial.C97_length_refuted
#print axioms Verif.Modem.C75_execute
#print axioms Verif.Modem.C75_too_long
#print axioms Verif.Modem.C75_connect
#print axioms Verif.Modem.C75_data
#print axioms Verif.Modem.C75_read_back
#print axioms Verif.Modem.C75_quiet
#print axioms Verif.Modem.C75_returns
#print axioms Verif.Modem.C75_answer_too_long
#print axioms Verif.Modem.C75_factory
#print axioms Verif.Modem.C77_content
#print axioms Verif.Modem.C77_same_partial
#print axioms Verif.Modem.C77_refuted
#print axioms Verif.Modem.C77_connect
#print axioms Verif.Dll.C39_foreground_accepts
#print axioms Verif.Dll.C39_background_accepts
#print axioms Verif.Dll.C39_foreground
#print axioms Verif.Dll.C39_background
#print axioms Verif.Dll.C39_d7atp
#print axioms Verif.Dll.C39_d7atp_rfu
#print axioms Verif.Dll.C40_foreground
#print axioms Verif.Dll.C40_command
#print axioms Verif.Dll.C40_background
#print axioms Verif.Dll.C41_refuted
#print axioms Verif.Dll.C41_exact_partial
#print axioms Verif.Dll.C41_returned
#print axioms Verif.Dll.C42_waits
#print axioms Verif.Dll.C42_completes
#print axioms Verif.Dll.C42_sequence
#print axioms Verif.Dll.C43_refuted
#print axioms Verif.Dll.C43_crc_is_last_partial
#print axioms Verif.Dll.C52_refuted
#print axioms Verif.Dll.C52_errors_partial
#print axioms Verif.Dll.C52_stuck
#print axioms Verif.Dll.C52_accounting
#print axioms Verif.Dll.C53_d7anp_refuted
#print axioms Verif.Dll.C53_foreground_refuted
#print axioms Verif.Dll.C53_background_refuted
#print axioms Verif.Dll.C53_d7atp_partial
#print axioms Verif.Dll.C53_d7atp_timing_refuted
#print axioms Verif.Dll.C53_d7atp_no_template_refuted
#print axioms Verif.Dll.C53_d7atp_ack_refuted
#print axioms Verif.Dll.C53_d7atp_tc_refuted
#print axioms Verif.Equality.C59_length
#print axioms Verif.Equality.C59_permissions
#print axioms Verif.Equality.C59_properties
#print axioms Verif.Equality.C59_header
#print axioms Verif.Equality.C59_channel
#print axioms Verif.Equality.C59_iff
#print axioms Verif.Equality.C59_refl
#print axioms Verif.Equality.C59_symm
#print axioms Verif.Equality.C59_trans_partial
#print axioms Verif.Equality.C59_trans_refuted
#print axioms Verif.Equality.C59_ne_partial
#print axioms Verif.Equality.C59_ne_refuted
#print axioms Verif.Equality.C59_not_both
#print axioms Verif.Modem.C108_calls
#print axioms Verif.Modem.C108_update
#print axioms Verif.Modem.C108_file
#print axioms Verif.Modem.C108_connect
#print axioms Verif.Examples.C67_system_file_partial
#print axioms Verif.Examples.C67_command_partial
#print axioms Verif.Examples.C67_text
#print axioms Verif.Examples.C69_verdict_partial
#print axioms Verif.Examples.C69_wait
#print axioms Verif.Examples.C69_raises
#print axioms Verif.Examples.C69_received
#print axioms Verif.Examples.C69_type_refuted
#print axioms Verif.Examples.C69_stale_refuted
#print axioms Verif.Examples.C70_engineering_partial
#print axioms Verif.Examples.C70_gaussian_refuted
#print axioms Verif.Examples.C70_paramp_refuted
#print axioms Verif.Examples.C70_cleanup
#print axioms Verif.Examples.C70_factory
#print axioms Verif.Examples.C70_profile
#print axioms Verif.C23_read_file
#print axioms Verif.C23_write_file_partial
#print axioms Verif.C23_write_file_empty
#print axioms Verif.C23_return_file_partial
#print axioms Verif.C23_read_file_header
#print axioms Verif.C23_write_file_header
#print axioms Verif.C23_create_new_file
#print axioms Verif.C23_host_configuration
#print axioms Verif.C23_indirect_forward
#print axioms Verif.Modem.C110_content
#print axioms Verif.Modem.C110_read_back
#print axioms Verif.Modem.C110_system_file
#print axioms Verif.Serial.C98_refused_partial
#print axioms Verif.Serial.C98_odd
#print axioms Verif.Serial.C98_skipped_partial
#print axioms Verif.Serial.C98_line
#print axioms Verif.Serial.C98_four_refuted
#print axioms Verif.Serial.C98_burst_refuted
#print axioms Verif.Modem.C98_received
#print axioms Verif.Modem.C98_answers
#print axioms Verif.Modem.C76_execute
#print axioms Verif.Modem.C76_unique
#print axioms Verif.Modem.C76_refused
#print axioms Verif.Modem.C76_returns
#print axioms Verif.Modem.C76_quiet
#print axioms Verif.Modem.C76_handled
#print axioms Verif.Modem.C79_called
#print axioms Verif.Modem.C79_settled
#print axioms Verif.Modem.C79_nowhere_else
#print axioms Verif.Modem.C79_settles
#print axioms Verif.HexText.C92_spells
#print axioms Verif.HexText.C92_line_unique
#print axioms Verif.HexText.C92_session
#print axioms Verif.HexText.C92_whole_line_refuted
#print axioms Verif.HexText.C92_line_end_refuted
#print axioms Verif.HexText.C92_generated
#print axioms Verif.HexText.C92_messages
#print axioms Verif.HexTool.C60_bytes
#print axioms Verif.HexTool.C60_unique
#print axioms Verif.HexTool.C60_spelling
#print axioms Verif.HexTool.C60_alp
#print axioms Verif.HexTool.C60_serial
#print axioms Verif.HexTool.C60_systemfile
#print axioms Verif.HexTool.C60_systemfile_only
#print axioms Verif.HexTool.C60_frames_refuted
#print axioms Verif.HexTool.C60_printed
#print axioms Verif.Modem.C85_off_partial
#print axioms Verif.Modem.C85_deadlock
#print axioms Verif.Modem.C85_overflow
#print axioms Verif.Modem.C85_command
#print axioms Verif.Json.C49_round_trip
#print axioms Verif.Json.C49_library
#print axioms Verif.Json.C49_no_alias
#print axioms Verif.Json.C49_injective
#print axioms Verif.Json.C49_unknown_name
#print axioms Verif.Json.C56_entries
#print axioms Verif.Json.C56_plain
#print axioms Verif.Json.C56_nested_list_kept
#print axioms Verif.Json.C56_injective
#print axioms Verif.Modem.C82_kept
#print axioms Verif.Modem.C82_settled
#print axioms Verif.Modem.C82_current
#print axioms Verif.Modem.C82_nowhere_else
#print axioms Verif.Modem.C82_settles
#print axioms Verif.Labels.C95_decimal
#print axioms Verif.Labels.C95_hexadecimal
#print axioms Verif.Labels.C95_channel
#print axioms Verif.Labels.C95_status
#print axioms Verif.Labels.C95_operation_partial
#print axioms Verif.Labels.C95_system_file_partial
#print axioms Verif.Labels.C95_lora_refuted
#print axioms Verif.Labels.C95_dll_config_refuted
#print axioms Verif.Labels.C95_permissions_refuted
#print axioms Verif.Labels.C95_action_partial
#print axioms Verif.Labels.C95_command_partial
#print axioms Verif.Labels.C95_describe_actions_partial
#print axioms Verif.Modem.C83_delivered
#print axioms Verif.Modem.C83_settled
#print axioms Verif.Modem.C83_origin
#print axioms Verif.Modem.C83_fresh_partial
#print axioms Verif.Modem.C83_answered_partial
#print axioms Verif.Modem.C83_settles
#print axioms Verif.Modem.C83_refuted_tag
#print axioms Verif.Modem.C83_refuted_overlap
#print axioms Verif.Modem.C83_connect_partial
#print axioms Verif.Modem.C83_connect_answered_partial
#print axioms Verif.C51_ct
#print axioms Verif.C51_channel_header
#print axioms Verif.C51_channel_id
#print axioms Verif.C51_channel_status_identifier
#print axioms Verif.C51_subband
#print axioms Verif.C51_file_permissions
#print axioms Verif.C51_file_properties
#print axioms Verif.C51_file_header
#print axioms Verif.C51_file_header_operand
#print axioms Verif.C51_addressee
#print axioms Verif.C51_qos
#print axioms Verif.C51_configuration
#print axioms Verif.C51_status
#print axioms Verif.C51_length
#print axioms Verif.C51_offset
#print axioms Verif.C51_data_request
#print axioms Verif.C51_data
#print axioms Verif.C51_query
#print axioms Verif.C51_abp
#print axioms Verif.C51_otaa
#print axioms Verif.C01_length_accepts
#print axioms Verif.C01_length_round_trip
#print axioms Verif.C02_length_size
#print axioms Verif.C02_length_shortest
#print axioms Verif.C02_length_prefix_free
#print axioms Verif.C02_length_sequence_unique
#print axioms Verif.Serial.C93_numbers
#print axioms Verif.Serial.C93_lost
#print axioms Verif.Serial.C93_detects
#print axioms Verif.Serial.C93_wraps_refuted
#print axioms Verif.Serial.C93_damaged_refuted
#print axioms Verif.Modem.C44_one_sink
#print axioms Verif.Modem.C44_between
#print axioms Verif.Modem.C44_order
#print axioms Verif.Modem.C44_received
#print axioms Verif.Modem.C44_frames
#print axioms Verif.Modem.C44_drains
#print axioms Verif.Modem.C45_refuted
#print axioms Verif.Modem.C45_untagged_lost
#print axioms Verif.Modem.C45_partial
#print axioms Verif.Modem.C45_swallowed
#print axioms Verif.Modem.C45_late_response
#print axioms Verif.Modem.C45_skip_mode
#print axioms Verif.Modem.C55_refuted
#print axioms Verif.Modem.C55_serial_error
#print axioms Verif.Modem.C55_dead_forever
#print axioms Verif.Modem.C55_partial
#print axioms Verif.Modem.C55_skip_mode
#print axioms Verif.Modem.C74_frames
#print axioms Verif.Modem.C74_alone_partial
#print axioms Verif.Modem.C74_refuted_callback
#print axioms Verif.Modem.C74_refuted_response
#print axioms Verif.Modem.C74_refuted_lost
#print axioms Verif.Modem.C74_refuted_assertion
#print axioms Verif.Modem.C74_refuted_counter
#print axioms Verif.Modem.C74_refuted_overflow
#print axioms Verif.Modem.C46_result_partial
#print axioms Verif.Modem.C46_tags_partial
#print axioms Verif.Modem.C46_refuted_late
#print axioms Verif.Modem.C46_refuted_untagged
#print axioms Verif.Modem.C46_refuted_completed
#print axioms Verif.Modem.C46_async
#print axioms Verif.Modem.C46_ends
#print axioms Verif.Modem.C50_result_partial
#print axioms Verif.Modem.C50_refuted_second
#print axioms Verif.Modem.C50_refuted_two_messages
#print axioms Verif.Modem.C50_again
#print axioms Verif.Modem.C50_connected
#print axioms Verif.Modem.C50_sources
#print axioms Verif.Modem.C50_callback
#print axioms Verif.Modem.C99_one_sink
#print axioms Verif.Modem.C99_written
#print axioms Verif.Modem.C99_next_call
#print axioms Verif.Modem.C99_connect
#print axioms Verif.Modem.C99_late_answer
#print axioms Verif.Modem.C71_transparent
#print axioms Verif.Modem.C71_delivered
#print axioms Verif.Modem.C71_silent
#print axioms Verif.Modem.C71_after_stop
#print axioms Verif.Modem.C71_one_read
#print axioms Verif.Modem.C71_stop_returns
#print axioms Verif.Modem.C71_lost
#print axioms Verif.Modem.C73_written
#print axioms Verif.Modem.C73_refused
#print axioms Verif.Modem.C73_sent
#print axioms Verif.Modem.C73_peer
#print axioms Verif.Mqtt.C58_survives
#print axioms Verif.Mqtt.C58_sound
#print axioms Verif.Mqtt.C58_published_partial
#print axioms Verif.Mqtt.C58_frames_partial
#print axioms Verif.Mqtt.C58_refuted
#print axioms Verif.Mqtt.C58_window
#print axioms Verif.Modem.C78_sent
#print axioms Verif.Modem.C78_describes
#print axioms Verif.Modem.C78_read_command
#print axioms Verif.Modem.C78_write_command
#print axioms Verif.Modem.C78_query_partial
#print axioms Verif.Modem.C78_status
#print axioms Verif.Modem.C78_unique
#print axioms Verif.Modem.C78_lost
#print axioms Verif.Modem.C78_refuted
#print axioms Verif.C07_reread
#print axioms Verif.C07_round_trip_partial
#print axioms Verif.C07_survives_iff
#print axioms Verif.C07_refuted
#print axioms Verif.C07_ambiguous
#print axioms Verif.C07_reads_iff
#print axioms Verif.C07_reads
#print axioms Verif.Print.C61_system_file_iff
#print axioms Verif.Print.C61_system_file_parsed
#print axioms Verif.Print.C61_phy_status
#print axioms Verif.Print.C61_firmware_refuted
#print axioms Verif.Print.C61_operation
#print axioms Verif.Print.C61_action
#print axioms Verif.Print.C61_command_iff
#print axioms Verif.Print.C61_command
#print axioms Verif.Print.C61_command_parsed
#print axioms Verif.Print.C61_command_add_action
#print axioms Verif.Print.C61_describe_actions
#print axioms Verif.Print.C62_ct
#print axioms Verif.Print.C62_sub_band
#print axioms Verif.Print.C62_channel_status_identifier
#print axioms Verif.Print.C62_addressee_iff_partial
#print axioms Verif.Print.C62_status_iff_partial
#print axioms Verif.Print.C62_operation_iff_partial
#print axioms Verif.Print.C62_system_file_iff_partial
#print axioms Verif.Print.C62_system_file_parsed
#print axioms Verif.Print.C62_action_partial
#print axioms Verif.Print.C62_status_action_partial
#print axioms Verif.Print.C62_command_partial
#print axioms Verif.Print.C62_permissions_refuted
#print axioms Verif.Print.C62_nls_refuted
#print axioms Verif.Print.C62_dll_config_refuted
#print axioms Verif.Print.C62_keys_refuted
#print axioms Verif.Print.C62_flags_refuted
#print axioms Verif.Modem.C91_identified
#print axioms Verif.Modem.C91_profile
#print axioms Verif.Modem.C91_factory
#print axioms Verif.Modem.C91_engineering
#print axioms Verif.Modem.C91_phy
#print axioms Verif.Modem.C91_ends
#print axioms Verif.Modem.C91_factory_forwarded
#print axioms Verif.Modem.C91_engineering_forwarded
#print axioms Verif.Modem.C87_unasked_partial
#print axioms Verif.Modem.C87_pushes_partial
#print axioms Verif.Modem.C87_connect_suffices
#print axioms Verif.Modem.C87_listening
#print axioms Verif.Modem.C87_settles
#print axioms Verif.Modem.C87_async_refuted
#print axioms Verif.Modem.C87_reset_refuted
#print axioms Verif.Modem.C88_logged
#print axioms Verif.Modem.C88_frames
#print axioms Verif.Modem.C88_reboots
#print axioms Verif.Modem.C88_silent_before
#print axioms Verif.Modem.C88_silent
#print axioms Verif.Modem.C81_command
#print axioms Verif.Modem.C81_query_partial
#print axioms Verif.Modem.C81_end
#print axioms Verif.Modem.Query.C104_stops
#print axioms Verif.Modem.Query.C104_silent
#print axioms Verif.Modem.Query.C104_always_refuted
#print axioms Verif.Modem.Query.C104_logged_partial
#print axioms Verif.Modem.Query.C104_ends_partial
#print axioms Verif.Examples.C102_wait
#print axioms Verif.Examples.C102_counted_partial
#print axioms Verif.Examples.C102_last_seconds_refuted
#print axioms Verif.Examples.C102_ends_partial
#print axioms Verif.Examples.C102_rounds_partial
#print axioms Verif.Examples.C102_goes_on
#print axioms Verif.Examples.C102_noticed
#print axioms Verif.Examples.C102_forward_refuted
#print axioms Verif.Examples.C102_back_refuted
#print axioms Verif.Modem.C113_rest
#print axioms Verif.Modem.C113_answered
#print axioms Verif.Modem.C113_returns
#print axioms Verif.Modem.C113_loop
#print axioms Verif.Modem.C113_connect
#print axioms Verif.Modem.C113_series
#print axioms Verif.Modem.C113_program
#print axioms Verif.Modem.C113_update
#print axioms Verif.Modem.C113_dead
#print axioms Verif.Modem.C113_dead_connect
#print axioms Verif.Modem.C113_dead_update
#print axioms Verif.Modem.C84_confirmed_partial
#print axioms Verif.Modem.C84_effect_partial
#print axioms Verif.Modem.C84_again_partial
#print axioms Verif.Modem.C84_raises_partial
#print axioms Verif.Modem.C84_raises_refuted
#print axioms Verif.Modem.C84_exception
#print axioms Verif.Modem.C84_dead
#print axioms Verif.Modem.C84_engineering
#print axioms Verif.Modem.C84_refuted
#print axioms Verif.Schema.C57_outcome
#print axioms Verif.Schema.C57_ct
#print axioms Verif.Schema.C57_ct_typed
#print axioms Verif.Schema.C57_channel_header
#print axioms Verif.Schema.C57_channel_header_typed
#print axioms Verif.Schema.C57_subband
#print axioms Verif.Schema.C57_subband_typed
#print axioms Verif.Schema.C57_channel_id
#print axioms Verif.Schema.C57_channel_id_typed
#print axioms Verif.Schema.C57_channel_status_identifier
#print axioms Verif.Schema.C57_channel_status_identifier_typed
#print axioms Verif.Schema.C57_sub_profile
#print axioms Verif.Schema.C57_sub_profile_typed
#print axioms Verif.Schema.C57_access_profile
#print axioms Verif.Schema.C57_access_profile_typed
#print axioms Verif.Schema.C57_background_frame_control
#print axioms Verif.Schema.C57_background_frame_control_typed
#print axioms Verif.Schema.C57_foreground_frame_control
#print axioms Verif.Schema.C57_foreground_frame_control_typed
#print axioms Verif.Schema.C57_foreground_frame
#print axioms Verif.Schema.C57_foreground_frame_typed
#print axioms Verif.Schema.C57_background_frame
#print axioms Verif.Schema.C57_background_frame_typed
#print axioms Verif.Schema.C57_qos
#print axioms Verif.Schema.C57_qos_typed
#print axioms Verif.Schema.C57_configuration
#print axioms Verif.Schema.C57_configuration_typed
#print axioms Verif.Schema.C57_status
#print axioms Verif.Schema.C57_status_typed
#print axioms Verif.Schema.C57_interface_configuration
#print axioms Verif.Schema.C57_data
#print axioms Verif.Schema.C57_data_request
#print axioms Verif.Schema.C57_data_request_typed
#print axioms Verif.Schema.C57_file_id_operand
#print axioms Verif.Schema.C57_file_id_operand_typed
#print axioms Verif.Schema.C57_arith_query_params
#print axioms Verif.Schema.C57_arith_query_params_typed
#print axioms Verif.Schema.C57_query_operand
#print axioms Verif.Schema.C57_query_operand_typed
#print axioms Verif.Schema.C57_file_header_operand
#print axioms Verif.Schema.C57_file_header_operand_typed
#print axioms Verif.Schema.C57_interface_status_operand
#print axioms Verif.Schema.C57_interface_status_operand_typed
#print axioms Verif.Schema.C57_tag_id
#print axioms Verif.Schema.C57_tag_id_typed
#print axioms Verif.Schema.C57_length
#print axioms Verif.Schema.C57_length_typed
#print axioms Verif.Schema.C57_indirect_interface_operand
#print axioms Verif.Schema.C57_indirect_interface_operand_typed
#print axioms Verif.Schema.C57_offset
#print axioms Verif.Schema.C57_offset_typed
#print axioms Verif.Schema.C57_lorawan_otaa
#print axioms Verif.Schema.C57_lorawan_abp
#print axioms Verif.Schema.C57_action
#print axioms Verif.Schema.C57_regular_action
#print axioms Verif.Schema.C57_forward_action
#print axioms Verif.Schema.C57_indirect_forward_action
#print axioms Verif.Schema.C57_status_action
#print axioms Verif.Schema.C57_tag_request_action
#print axioms Verif.Schema.C57_tag_response_action
#print axioms Verif.Schema.C57_command
#print axioms Verif.Schema.C57_d7anp_control
#print axioms Verif.Schema.C57_d7anp_control_typed
#print axioms Verif.Schema.C57_d7anp_frame
#print axioms Verif.Schema.C57_d7anp_frame_typed
#print axioms Verif.Schema.C57_d7atp_control
#print axioms Verif.Schema.C57_d7atp_control_typed
#print axioms Verif.Schema.C57_d7atp_frame
#print axioms Verif.Schema.C57_d7atp_frame_typed
#print axioms Verif.Schema.C57_file_header
#print axioms Verif.Schema.C57_file_header_typed
#print axioms Verif.Schema.C57_file_permissions
#print axioms Verif.Schema.C57_file_permissions_typed
#print axioms Verif.Schema.C57_file_properties
#print axioms Verif.Schema.C57_file_properties_typed
#print axioms Verif.Schema.C57_access_profile_file
#print axioms Verif.Schema.C57_access_profile_file_typed
#print axioms Verif.Schema.C57_dll_config_file
#print axioms Verif.Schema.C57_dll_config_file_typed
#print axioms Verif.Schema.C57_dll_status_file
#print axioms Verif.Schema.C57_dll_status_file_typed
#print axioms Verif.Schema.C57_engineering_mode_file
#print axioms Verif.Schema.C57_engineering_mode_file_typed
#print axioms Verif.Schema.C57_factory_settings_file
#print axioms Verif.Schema.C57_factory_settings_file_typed
#print axioms Verif.Schema.C57_firmware_version_file
#print axioms Verif.Schema.C57_firmware_version_file_typed
#print axioms Verif.Schema.C57_interface_configuration_file
#print axioms Verif.Schema.C57_interface_configuration_file_typed
#print axioms Verif.Schema.C57_phy_status_file
#print axioms Verif.Schema.C57_phy_status_file_typed
#print axioms Verif.Schema.C57_security_key_file
#print axioms Verif.Schema.C57_security_key_file_typed
#print axioms Verif.Schema.C57_root_authentication_key_file
#print axioms Verif.Schema.C57_root_authentication_key_file_typed
#print axioms Verif.Schema.C57_user_authentication_key_file
#print axioms Verif.Schema.C57_user_authentication_key_file_typed
#print axioms Verif.Schema.C57_uid_file
#print axioms Verif.Schema.C57_uid_file_typed
#print axioms Verif.Schema.C57_vid_file
#print axioms Verif.Schema.C57_vid_file_typed
#print axioms Verif.Schema.C57_addressee
#print axioms Verif.Schema.C57_addressee_typed
#print axioms Verif.Schema.C57_data_typed
#print axioms Verif.Schema.C57_interface_configuration_typed
#print axioms Verif.Schema.C57_actions_typed
#print axioms Verif.Schema.C57_forward_action_typed
#print axioms Verif.Schema.C57_indirect_forward_action_typed
#print axioms Verif.Schema.C57_status_action_typed
#print axioms Verif.Schema.C57_command_typed
#print axioms Verif.Schema.C57_operation
#print axioms Verif.Schema.C57_operation_refused
#print axioms Verif.Schema.C57_unchecked
#print axioms Verif.Schema.C57_no_alternative
#print axioms Verif.Schema.C57_key_string
#print axioms Verif.Examples.C72_sends
#print axioms Verif.Examples.C72_all_runs
#print axioms Verif.Examples.C72_arrives
#print axioms Verif.Serial.C28_builder
#print axioms Verif.Serial.C28_round_trip
#print axioms Verif.Serial.C28_commands
#print axioms Verif.Serial.C29_chunking
#print axioms Verif.Serial.C29_errors_and_counters_vary
#print axioms Verif.Serial.C30_frames
#print axioms Verif.Serial.C34_receiver
#print axioms Verif.Serial.C34_fresh_mismatch
#print axioms Verif.Serial.C34_builder
#print axioms Verif.Serial.C30_link
#print axioms Verif.Serial.C31_noise_without_sync
#print axioms Verif.Serial.C31_resync
#print axioms Verif.Serial.C31_held_back
#print axioms Verif.Serial.C32_sound
#print axioms Verif.Serial.C32_takes_payload
#print axioms Verif.Serial.C32_reboot_overlap
#print axioms Verif.Serial.C35_accounting
#print axioms Verif.Serial.C36_refuted
#print axioms Verif.Serial.C36_raises_partial
#print axioms Verif.Serial.C36_stuck
#print axioms Verif.Serial.C37_refuted
#print axioms Verif.Serial.C37_bounded_partial
#print axioms Verif.Serial.C38_skip_mode
#print axioms Verif.Serial.C38_frames
#print axioms Verif.C22_bytes
#print axioms Verif.C22_auto_tag
#print axioms Verif.C22_add_only_appends
#print axioms Verif.C22_add_action
#print axioms Verif.Modem.C107_series_partial
#print axioms Verif.Modem.C107_giving_up_partial
#print axioms Verif.Modem.C107_limit
#print axioms Verif.Modem.C107_refuted
#print axioms Verif.Mqtt.C86_asks
#print axioms Verif.Mqtt.C86_sound
#print axioms Verif.Mqtt.C86_all_but_first
#print axioms Verif.Mqtt.C86_all
#print axioms Verif.Mqtt.C86_settles
#print axioms Verif.Serial.C105_line_partial
#print axioms Verif.Serial.C105_one_partial
#print axioms Verif.Serial.C105_lost_end
#print axioms Verif.Serial.C105_lost_partial
#print axioms Verif.Serial.C105_taken_refuted
#print axioms Verif.Serial.C105_command_refuted
#print axioms Verif.Serial.C105_between
#print axioms Verif.Serial.C105_added_partial
#print axioms Verif.Serial.C105_added_end
#print axioms Verif.Serial.C105_same
#print axioms Verif.Serial.C105_waits
#print axioms Verif.Modem.C105_received_partial
#print axioms Verif.Stats.C103_sum
#print axioms Verif.Stats.C103_spacing
#print axioms Verif.Stats.C103_reported
#print axioms Verif.Stats.C103_loop
#print axioms Verif.Stats.C103_silent_refuted
#print axioms Verif.C54_read
#print axioms Verif.C54_write_partial
#print axioms Verif.C54_write_error
#print axioms Verif.C54_write_empty
#print axioms Verif.C54_enum_id
#print axioms Verif.C54_table
#print axioms Verif.C15_uid_accepts
#print axioms Verif.C15_uid
#print axioms Verif.C15_vid
#print axioms Verif.C15_vid_accepts
#print axioms Verif.C15_dll_status
#print axioms Verif.C15_dll_status_accepts
#print axioms Verif.C15_engineering_mode
#print axioms Verif.C15_engineering_mode_accepts
#print axioms Verif.C15_engineering_mode_names
#print axioms Verif.C15_dll_config_partial
#print axioms Verif.C15_dll_config_serialises
#print axioms Verif.C15_dll_config_accepts
#print axioms Verif.C15_dll_config_refuted
#print axioms Verif.C15_firmware_padded
#print axioms Verif.C15_firmware_partial
#print axioms Verif.C15_firmware_only_full
#print axioms Verif.C15_firmware_serialises
#print axioms Verif.C15_firmware_accepts
#print axioms Verif.C15_firmware_refuted
#print axioms Verif.C15_phy_status_cut
#print axioms Verif.C15_phy_status_partial
#print axioms Verif.C15_phy_status_serialises
#print axioms Verif.C15_phy_status_refuted
#print axioms Verif.C15_access_profile_reread
#print axioms Verif.C15_access_profile_partial
#print axioms Verif.C15_access_profile_size
#print axioms Verif.C15_access_profile_short
#print axioms Verif.C15_access_profile_none
#print axioms Verif.C15_access_profile_refuted
#print axioms Verif.C16_size
#print axioms Verif.C16_declared
#print axioms Verif.C16_declared_iff
#print axioms Verif.C16_lorawan_refuted
#print axioms Verif.C17_accepts
#print axioms Verif.C17_bytes
#print axioms Verif.C17_injective_partial
#print axioms Verif.C17_collision
#print axioms Verif.C17_parse
#print axioms Verif.C18_serialises
#print axioms Verif.C18_reread_partial
#print axioms Verif.C18_small_exponent
#print axioms Verif.C18_refuted
#print axioms Verif.C18_smoothing
#print axioms Verif.C47_independent_partial
#print axioms Verif.C47_poisoned
#print axioms Verif.C47_serialisation_stable
#print axioms Verif.C47_refuted
#print axioms Verif.C47_attributes_change
#print axioms Verif.C48_never_raises
#print axioms Verif.C48_attached_iff
#print axioms Verif.C48_type_iff
#print axioms Verif.C48_no_keys
#print axioms Verif.C48_sizes
#print axioms Verif.C63_system_file
#print axioms Verif.C63_action
#print axioms Verif.C63_access_profile
#print axioms Verif.C63_sub_profile
#print axioms Verif.C64_phy
#print axioms Verif.C64_file_header
#print axioms Verif.C64_session
#print axioms Verif.C64_operands
#print axioms Verif.C64_system_files
#print axioms Verif.C64_long_length
#print axioms Verif.C65_action
#print axioms Verif.C65_command
#print axioms Verif.C66_parts
#print axioms Verif.C66_files_partial
#print axioms Verif.C66_engineering_mode
#print axioms Verif.Throughput.C89_setup
#print axioms Verif.Throughput.C89_counted_partial
#print axioms Verif.Throughput.C89_frames_partial
#print axioms Verif.Throughput.C89_ok_partial
#print axioms Verif.Throughput.C89_deaf
#print axioms Verif.Throughput.C89_refuted
#print axioms Verif.Throughput.C89_early
#print axioms Verif.Throughput.C89_status_refuted
#print axioms Verif.Throughput.C89_unconnected
#print axioms Verif.Throughput.C89_no_answer
#print axioms Verif.Throughput.C89_ends
#print axioms Verif.Throughput.C90_ends
#print axioms Verif.Throughput.C96_listen_alone
#print axioms Verif.Throughput.C96_options
#print axioms Verif.Throughput.C96_address
#print axioms Verif.Throughput.C96_written
#print axioms Verif.Throughput.C96_done
#print axioms Verif.Throughput.C96_no_number
#print axioms Verif.Throughput.C96_far
#print axioms Verif.Throughput.C96_ends
#print axioms Verif.Throughput.C96_silent_refuted
#print axioms Verif.Throughput.C96_listen_partial
#print axioms Verif.Throughput.C96_means_partial
#print axioms Verif.Throughput.C96_listen_ends
#print axioms Verif.Throughput.C96_four_runs_refuted
#print axioms Verif.Throughput.C90_written
#print axioms Verif.Throughput.C90_done
#print axioms Verif.Throughput.C90_arrival
#print axioms Verif.Throughput.C90_ok_partial
#print axioms Verif.Throughput.C90_radio_partial
#print axioms Verif.Throughput.C90_means_partial
#print axioms Verif.Throughput.C90_late_refuted
#print axioms Verif.Throughput.C90_extra_refuted
#print axioms Verif.Throughput.C90_nothing_refuted
#print axioms Verif.Serial.C94_command
#print axioms Verif.Serial.C94_sequence
#print axioms Verif.Update.C68_image
#print axioms Verif.Update.C68_confirmed
#print axioms Verif.Update.C68_failed
#print axioms Verif.Update.C68_outcome_partial
#print axioms Verif.Update.C68_frame
#print axioms Verif.Update.C68_progress
#print axioms Verif.Update.C68_progress_refuted
#print axioms Verif.Modem.C80_update
#print axioms Verif.Modem.C80_completes
#print axioms Verif.Modem.C106_outcome_partial
#print axioms Verif.Modem.C106_file_partial
#print axioms Verif.Modem.C106_exit
#print axioms Verif.Modem.C106_failed_refuted
#print axioms Verif.Modem.C106_done_refuted_tag
#print axioms Verif.Modem.C106_done_refuted_overlap
#print axioms Verif.Modem.C106_order
#print axioms Verif.Modem.C109_calls
#print axioms Verif.Modem.C109_update
#print axioms Verif.Modem.C109_file
