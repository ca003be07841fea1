import Verif.Model.Header
/-
Transcriptions of the repository's own unit tests and documentation examples, evaluated by the
kernel against the model.  Tests of the model's fidelity, not proofs of properties.
Each one cites the test or doc example it transcribes.
-/

namespace Pcics.Header

/- src/header/bridge_control.rs:85-103 -/
example :
    BridgeControl.ofU16 0xAAAA
      = {
        parity_error_response_enable := false, serr_enable := true, isa_enable := false,
        vga_enable := true, vga_16_enable := false, master_abort_mode := true,
        secondary_bus_reset := false, fast_back_to_back_enable := true,
        primary_discard_timer := false, secondary_discard_timer := true,
        discard_timer_status := false, discard_timer_serr_enable := true } := by decide +kernel

/- src/header/cardbus_bridge_control.rs:71-87 -/
example :
    CardbusBridgeControl.ofU16 0xAAAA
      = {
        parity_error_response_enable := false, serr_enable := true, isa_enable := false,
        vga_enable := true, master_abort_mode := true, cardbus_reset := false,
        ireq_int_enable := true, memory_0_prefetch_enable := false,
        memory_1_prefetch_enable := true, write_posting_enable := false } := by decide +kernel

/- src/header/command.rs:62-80 -/
example :
    Command.ofU16 0xAAAA
      = {
        io_space := false, memory_space := true, bus_master := false, special_cycles := true,
        memory_write_and_invalidate_enable := false, vga_palette_snoop := true,
        parity_error_response := false, stepping := true, serr_enable := false,
        fast_back_to_back_enable := true, interrupt_disable := false, reserved := 0b10101 } := by decide +kernel

/- src/header/status.rs:97-116 -/
example :
    Status.ofU16 0xAAAA
      = (.ok {
        reserved := 0b010, interrupt_status := true, capabilities_list := false,
        is_66mhz_capable := true, user_definable_features := false,
        fast_back_to_back_capable := true, master_data_parity_error := false,
        devsel_timing := .Medium, signaled_target_abort := true,
        received_target_abort := false, received_master_abort := true, system_error := false,
        detected_parity_error := true } : Res Unit Status) := by decide +kernel

end Pcics.Header
