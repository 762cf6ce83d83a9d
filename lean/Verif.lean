import Verif.Props.C42
import Verif.Props.C43
import Verif.Props.C44
import Verif.Props.C45
import Verif.Props.C16
import Verif.Props.C19
import Verif.Props.C20
import Verif.Props.C46
import Verif.Props.C47
import Verif.Props.C52
import Verif.Props.C53
import Verif.Props.C54
import Verif.Props.C55
import Verif.Props.C56
import Verif.Props.C21
import Verif.Props.C22
import Verif.Props.C23
import Verif.Props.C24
import Verif.Props.C25
import Verif.Props.C26
import Verif.Props.C27
import Verif.Props.C28
import Verif.Props.C29
import Verif.Props.C30
import Verif.Proofs.MidiFmRun
import Verif.Proofs.MidiView
import Verif.Props.C31
import Verif.Props.C41
import Verif.Props.C33
import Verif.Props.C34
import Verif.Props.C57
import Verif.Props.C58
import Verif.Props.C05
import Verif.Props.C06
import Verif.Props.C07
import Verif.Props.C08
import Verif.Props.C09
import Verif.Props.C10
import Verif.Props.C01
import Verif.Props.C02
import Verif.Props.C03
import Verif.Props.C04
import Verif.Props.C11
import Verif.Props.C59
import Verif.Props.C12
import Verif.Props.C13
import Verif.Props.C14
import Verif.Props.C15
import Verif.Props.C17
import Verif.Props.C18
import Verif.Proofs.MidiLevel
import Verif.Proofs.MidiChannel3
import Verif.Props.C32
import Verif.Props.C35
import Verif.Props.C36
import Verif.Props.C37
import Verif.Props.C38
import Verif.Proofs.MidiReset
import Verif.Props.C39
import Verif.Proofs.MidiCtl
import Verif.Props.C40
import Verif.Props.C48
import Verif.Props.C49
import Verif.Model.AppleMidi
import Verif.Props.C50
import Verif.Props.C51
import Verif.Proofs.MidiPlay
import Verif.Props.C60
import Verif.Proofs.MidiKept
import Verif.Proofs.MidiPoly
import Verif.Proofs.MidiPolyKey
import Verif.Proofs.MidiPsg
import Verif.Proofs.MidiPsgMem
import Verif.Proofs.MidiPsgView
import Verif.Props.C61
import Verif.Model.Ui
import Verif.Spec.Ui
import Verif.Spec.ExampleUi
import Verif.Proofs.Ui
import Verif.Proofs.MidiBare
import Verif.Proofs.UiRun
import Verif.Proofs.UiMap
import Verif.Props.C62
import Verif.Props.C63
import Verif.Props.C64
import Verif.Proofs.UiChange
import Verif.Props.C65
import Verif.Model.Notify
import Verif.Proofs.Notify
import Verif.Proofs.UiPanel
import Verif.Props.C66
import Verif.Proofs.UiStatus
import Verif.Props.C67
import Verif.Proofs.UiLog
import Verif.Props.C68
import Verif.Model.LogText
import Verif.Spec.LogText
import Verif.Proofs.LogText
import Verif.Proofs.MidiSaid
import Verif.Proofs.MidiFmSaid
import Verif.Proofs.MidiRxSaid
import Verif.Props.C69
import Verif.Model.LogConc
import Verif.Spec.LogConc
import Verif.Proofs.LogConc
import Verif.Props.C70
import Verif.Props.C71
import Verif.Props.C72
import Verif.Props.C33Engine
import Verif.Props.C73
import Verif.Props.C74
import Verif.Model.Session
import Verif.Spec.Session
import Verif.Proofs.Session
import Verif.Props.C75
import Verif.Model.Radio
import Verif.Model.Utils
import Verif.Props.C76
import Verif.Props.C77
import Verif.Proofs.MidiRetuneSm
import Verif.Proofs.MidiBendSmall
import Verif.Props.C55All
import Verif.Proofs.PsgWane
import Verif.Proofs.MidiFade
import Verif.Props.C78
import Verif.Spec.Sample
import Verif.Proofs.Sample
import Verif.Proofs.MidiSample
import Verif.Props.C79
import Verif.Model.Port
import Verif.Spec.Port
import Verif.Proofs.Port
import Verif.Proofs.PortRun
import Verif.Proofs.PortSend
import Verif.Proofs.PortRead
import Verif.Proofs.PortMore
import Verif.Props.C80
import Verif.Props.C81
import Verif.Props.C82
import Verif.Props.C83
import Verif.Props.C84
import Verif.Props.C85
import Verif.Props.C86
import Verif.Props.C87
import Verif.Props.C88
import Verif.Props.C89
import Verif.Proofs.MidiPolyVel
import Verif.Proofs.MidiLine
import Verif.Proofs.Velocity
