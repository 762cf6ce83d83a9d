import Verif.Spec.Example
import Verif.Spec.Ui
/-! Concrete data for the examples about the display. -/
namespace Mdmi.Ex
open Mdmi.Midi (Mode)

/-- A build on a console without a cartridge link. -/
def ui (m : Mode) : Ui.Env := ⟨env m, ['v', '1'], false, false, false⟩

/-- Engine and display after start-up and some events. -/
def shows (m : Mode) (evs : List Ui.Ev) : Ui.Sys := Ui.run (ui m) (Ui.boot (ui m) true mem) evs

/-- A display frame of the serial port. -/
def frame : Ui.Ev := .frame ⟨1, 0, .serial, none⟩

/-- A message. -/
def msg (op : Midi.Op) : Ui.Ev := .midi op []

theorem ui_ok (m : Mode) : (ui m).midi.Ok := env_ok m

end Mdmi.Ex
