import Verif.BinMemory.Props
import Verif.HexFile.Props
import Verif.HexFile.CorruptProps
import Verif.HexFile.Output
import Verif.Value.Props
import Verif.Number.Props
import Verif.Eval.Props
import Verif.Eval.ExprProps
import Verif.Insn.Props
import Verif.Config.Props
import Verif.Config.OriginProps
import Verif.StrBuffer.Props
import Verif.Table.Props
import Verif.Tables.Props
import Verif.Store.Props
import Verif.Reader.Props
import Verif.Data.Props
import Verif.Data.EndProps
import Verif.Data.MakerSpec
import Verif.Data.Makers
import Verif.Driver.Props
import Verif.Listing.Props
import Verif.Dis.Props
import Verif.Cpu.Model
import Verif.Cpu.Lemmas
import Verif.Cpu.Print
import Verif.Cpu.Lex
import Verif.Cpu.Kit
import Verif.Cpu.I8080.Model
import Verif.Cpu.I8080.Lemmas
import Verif.Cpu.I8080.Encode
import Verif.Cpu.I8080.Props
import Verif.Cpu.Back
import Verif.Cpu.I8080.Back
import Verif.Cpu.Ins8060.Model
import Verif.Cpu.Ins8060.Lemmas
import Verif.Cpu.Ins8060.Encode
import Verif.Cpu.Ins8060.Props
import Verif.Cpu.Ins8060.Back
import Verif.Cpu.Cdp1802.Back
import Verif.Cpu.Cdp1802.Props
import Verif.Cpu.Mc6800.Model
import Verif.Cpu.Mc6800.Encode
import Verif.Cpu.Mc6800.Props
import Verif.Cpu.Mc6800.Back
import Verif.Cpu.Dot
import Verif.Cpu.ListModel
import Verif.Cpu.Ops
import Verif.Cpu.Intel
import Verif.Cpu.I8051.Model
import Verif.Cpu.I8051.Encode
import Verif.Cpu.I8051.Props
import Verif.Cpu.I8051.Back
import Verif.Cpu.I8051.Smart
import Verif.Cpu.I8048.Model
import Verif.Cpu.I8048.Encode
import Verif.Cpu.I8048.Props
import Verif.Cpu.I8048.Back
import Verif.Cpu.F3850.Model
import Verif.Cpu.F3850.Encode
import Verif.Cpu.F3850.Props
import Verif.Cpu.F3850.Back
import Verif.Cpu.Tms7000.Model
import Verif.Cpu.Tms7000.Spec
import Verif.Cpu.Tms7000.Encode
import Verif.Cpu.Tms7000.Props
import Verif.Cpu.Tms7000.Back
import Verif.Cpu.Ins8070.Model
import Verif.Cpu.Ins8070.Spec
import Verif.Cpu.Ins8070.Encode
import Verif.Cpu.Ins8070.Props
import Verif.Cpu.Ins8070.Back
import Verif.Cpu.Tms32010.Model
import Verif.Cpu.Tms9900.Model
import Verif.Cpu.Tms32010.Encode
import Verif.Cpu.Tms9900.Encode
import Verif.Cpu.Tms32010.Props
import Verif.Cpu.Tms9900.Props
import Verif.Cpu.Tms32010.Back
import Verif.Cpu.Tms9900.Back
import Verif.Cpu.Scn2650.Model
import Verif.Cpu.Scn2650.Spec
import Verif.Cpu.Scn2650.Encode
import Verif.Cpu.Scn2650.Props
import Verif.Cpu.Scn2650.Back
import Verif.Cpu.I8096.Model
import Verif.Cpu.I8096.Spec
import Verif.Cpu.I8096.Encode
import Verif.Cpu.I8096.Codes
import Verif.Cpu.I8096.Props
import Verif.Cpu.I8096.Back
import Verif.Cpu.Mn1610.Model
import Verif.Cpu.Mn1610.Spec
import Verif.Cpu.Mn1610.Encode
import Verif.Cpu.Mn1610.Props
import Verif.Cpu.Mn1610.Back
import Verif.Cpu.Pdp8.Model
import Verif.Cpu.Pdp8.Encode
import Verif.Cpu.Pdp8.Names
import Verif.Cpu.Pdp8.Spec
import Verif.Cpu.Pdp8.Props
import Verif.Cpu.Tlcs90.Model
import Verif.Cpu.Tlcs90.Encode
import Verif.Cpu.Tlcs90.Codes
import Verif.Cpu.Tlcs90.Emit
import Verif.Cpu.Tlcs90.Spec
import Verif.Cpu.Tlcs90.Props
import Verif.Cpu.Tlcs90.Back
import Verif.Cpu.Pdp8.Back
import Verif.Cpu.Mc6805.Model
import Verif.Cpu.Mc6805.Encode
import Verif.Cpu.Mc6805.Props
import Verif.Cpu.Mc6805.Back
import Verif.Cpu.Mos6502.Model
import Verif.Cpu.Mos6502.Encode
import Verif.Cpu.Mos6502.Props
import Verif.Cpu.Mos6502.Back
import Verif.Cpu.Reads
import Verif.Cpu.Again
import Verif.Cpu.Exceptions
import Verif.Float.Props
import Verif.Float.MulDiv
import Verif.Float.MulDivLemmas
import Verif.Float.MulDivProps
import Verif.Float.Machine
import Verif.Float.MachineSpec
import Verif.Float.MachineLemmas
import Verif.Float.MachineProps
import Verif.Options.Model
import Verif.Options.Spec
import Verif.Options.Lemmas
import Verif.Options.Props
import Verif.Maker.Model
import Verif.Maker.Spec
import Verif.Maker.Tree
import Verif.Maker.Run
import Verif.Maker.Eval
import Verif.Maker.Ops
import Verif.Maker.Styles
import Verif.Maker.Numbers
import Verif.Maker.Lexers
import Verif.Maker.More
import Verif.Maker.Meaning
import Verif.Maker.Props
import Verif.Cpu.Z80.Model
import Verif.Cpu.Z80.Lemmas
import Verif.Cpu.Z80.Encode
import Verif.Cpu.Z80.Props
import Verif.Cpu.Z80.Back
