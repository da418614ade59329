import Verif.Event.Props
import Verif.Device.Props
import Verif.Xlat.Props
import Verif.Card.Props3
import Verif.Tape.Bytewise
import Verif.Conf.Props
import Verif.Cpu30.Examples
import Verif.Dev1442.Examples
import Verif.Dev1442.Interlock
import Verif.Cons.Write
import Verif.Cons.Interlock
import Verif.Dasd.SeekEx
import Verif.Dasd.Rewrite
import Verif.Lpr.Lines
import Verif.Disasm.Props
import Verif.Mt.Lost
import Verif.Cpu50.Model
import Verif.Cpu50.Ros
import Verif.Cpu50.Words0
import Verif.Cpu50.Words1
import Verif.Cpu50.Words2
import Verif.Cpu50.Isa
import Verif.Cpu50.Bits
import Verif.Cpu50.Mem
import Verif.Cpu50.Fetch
import Verif.Cpu50.End
import Verif.Cpu50.Arith
import Verif.Cpu50.Tails
import Verif.Cpu50.Words3
import Verif.Cpu50.Tails2
import Verif.Cpu50.Tails3
import Verif.Cpu50.Rr
import Verif.Cpu50.RrOps
import Verif.Cpu50.Rx
import Verif.Cpu50.Store
import Verif.Cpu50.Rx4
import Verif.Cpu50.Step
import Verif.Cpu50.Prog
import Verif.Cpu50.Prot
import Verif.Cpu50.Props
import Verif.Cpu50.Isa2
import Verif.Cpu50.Conf
import Verif.Cpu50.Irq
import Verif.Cpu50.Irq2
import Verif.Cpu50.Props2
import Verif.Cpu50.Words7
import Verif.Cpu50.Timer
import Verif.Cpu50.Props3
import Verif.Cpu50.Flow
import Verif.Cpu50.Frame
import Verif.Cpu50.Guard
import Verif.Cpu50.Flow2
import Verif.Cpu50.Props4
import Verif.Cpu50.Words8
import Verif.Cpu50.Bound
import Verif.Cpu50.Safe
import Verif.Cpu50.Ssk
import Verif.Cpu50.Props5
import Verif.Cpu50.ExecuteProps
import Verif.Cpu50.Multiple
import Verif.Cpu50.OpCheck
import Verif.Cpu50.TestSet
import Verif.Cpu50.Ssm
import Verif.Sel50.Model
import Verif.Sel50.Read
import Verif.Sel50.ReadInv
import Verif.Sel50.ReadRun
import Verif.Sel50.Props
import Verif.Sel50.Hand
import Verif.Sel50.Count
import Verif.Sel50.Join
import Verif.Sel50.Viol
import Verif.Sel50.Write
import Verif.Sel50.WriteInv
import Verif.Sel50.WriteRun
import Verif.Sel50.WriteProps
import Verif.Sel50.Select
import Verif.Sel50.SelectProps
import Verif.Sel50.QuickBusy
import Verif.Ctl2844.Props
import Verif.Ctl2841.Latch
import Verif.Sel50.Disk41
import Verif.Ctl2841.Parity
import Verif.Ctl2844.Parity
import Verif.Cons.Lines
import Verif.Ctl2844.Alu
import Verif.Ctl2841.Alu
import Verif.Cpu50.ExEx
import Verif.Cpu50.Words14
import Verif.Cpu50.ExecuteRr
import Verif.Cpu50.Words15
import Verif.Cpu50.Sla
import Verif.Cpu50.Overflow
import Verif.Cpu50.Words16
import Verif.Cpu50.FloatLoad
import Verif.Cpu50.Words17
import Verif.Cpu50.FloatMem
import Verif.Cpu50.Words18
import Verif.Cpu50.FloatStore
