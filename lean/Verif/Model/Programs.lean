import Verif.Model.Examples

/-! Model of examples/change_access_profile.py, examples/write_factory_settings.py, examples/read_phy_status.py and
examples/engineering_mode.py as a whole, up to the point where they end or begin to wait for ever. The modem is a parameter:
`connect s r s'` says that a call of `connect()` in state `s` has ended in state `s'`, with the exception `r` if it is one
(its result is not looked at); `execute s c r s'` says the same of `execute_command(c)`. The argument parser, printing and
logging are not modelled; the callbacks are part of the modem's side. -/

namespace Verif.Examples

variable {S : Type}

/-- The programs connect, make a command and execute it. examples/write_factory_settings.py 62-110 (its printing in between
is left out), examples/read_phy_status.py 51-58, and examples/change_access_profile.py from line 66 on. -/
inductive Once (connect : S → Option PyErr → S → Prop) (execute : S → Command → Except PyErr (List Command) → S → Prop)
    (command : Except PyErr Command) : S → Except PyErr (List Command) → S → Prop
  | unconnected (s s' : S) (e : PyErr) : connect s (some e) s' → Once connect execute command s (.error e) s'
  | unmade (s s' : S) (e : PyErr) : connect s none s' → command = .error e → Once connect execute command s (.error e) s'
  | executed (s s1 s' : S) (c : Command) (r : Except PyErr (List Command)) : connect s none s1 → command = .ok c →
      execute s1 c r s' → Once connect execute command s r s'

/-- examples/change_access_profile.py 64-86: the channel is read before the modem is opened (64). -/
inductive ProfileProgram (connect : S → Option PyErr → S → Prop)
    (execute : S → Command → Except PyErr (List Command) → S → Prop) (rand : UInt8) (a : ProfileArgs) :
    S → Except PyErr (List Command) → S → Prop
  | channel (s : S) (e : PyErr) : ChannelID.fromString a.channelId = .error e →
      ProfileProgram connect execute rand a s (.error e) s
  | once (s s' : S) (ch : ChannelID) (r : Except PyErr (List Command)) : ChannelID.fromString a.channelId = .ok ch →
      Once connect execute (profileCommand rand a) s r s' → ProfileProgram connect execute rand a s r s'

/-- examples/read_phy_status.py 54-58: the default lists of the class are the ones it was loaded with; the objects made
before (d7a/system_files/system_files.py 51) have no channels and leave them as they are. -/
def readPhyCommand (rand : UInt8) : Except PyErr Command := do
  let (d, o) := PhyStatusFile.call .fresh { listLength := 10 }
  let f ← o
  Command.createWithReadSystemFile rand (.phyStatus (f.view d)) .HOST none

/-- examples/engineering_mode.py 96-172 without `-x`: the file is made before the modem is opened (96-109); after
`connect` (114) comes the command, which is executed until it is confirmed (160-172). The number is that of the calls of
`execute_command`. -/
inductive EngineeringProgram (connect : S → Option PyErr → S → Prop)
    (execute : S → Command → Except PyErr (List Command) → S → Prop) (rand : UInt8) (a : EngineeringArgs) :
    S → Nat → Option PyErr → S → Prop
  | rejected (s : S) (e : PyErr) : engineeringFile a = .error e → EngineeringProgram connect execute rand a s 0 (some e) s
  | unconnected (s s' : S) (em : EngineeringModeFile) (e : PyErr) : engineeringFile a = .ok em → connect s (some e) s' →
      EngineeringProgram connect execute rand a s 0 (some e) s'
  | unmade (s s' : S) (em : EngineeringModeFile) (e : PyErr) : engineeringFile a = .ok em → connect s none s' →
      engineeringCommand rand a = .error e → EngineeringProgram connect execute rand a s 0 (some e) s'
  | loop (s s1 s' : S) (c : Command) (n : Nat) (r : Option PyErr) : connect s none s1 → engineeringCommand rand a = .ok c →
      Repeat (fun s r s' => execute s c r s') s1 n r s' → EngineeringProgram connect execute rand a s n r s'

end Verif.Examples
