import Verif.Py
import Verif.Model.BitField
import Verif.Model.Word
import Verif.Model.Memory
import Verif.Model.Registers
import Verif.Model.Instruction
import Verif.Model.Opcodes
import Verif.Model.Cards
import Verif.Model.SymbolTable
import Verif.Model.Symbols
import Verif.Model.Tools
import Verif.Model.Gen
import Verif.Props.BitField
import Verif.Props.Word
import Verif.Props.Memory
import Verif.Props.Registers
import Verif.Props.Instruction
import Verif.Props.Tables
import Verif.Props.Cards
import Verif.Props.Decks
import Verif.Props.SymbolTable
import Verif.Props.Symbols
import Verif.Props.Tools
import Verif.Props.SymTools
import Verif.Props.ListingTool
import Verif.Props.Gen
import Verif.Props.GenPages
import Verif.Props.DocTable
import Verif.Props.BitFieldMore
import Verif.Props.Show
import Verif.Props.SymOrder
import Verif.Props.InstrOrder
import Verif.Props.Reread
import Verif.Props.Punch
import Verif.Props.Slices
import Verif.Tests.BitField
import Verif.Tests.Instructions
import Verif.Tests.Machine
import Verif.Tests.Cards
import Verif.Props.Assembler
import Verif.Props.Sharing
import Verif.Props.NamedTuple
import Verif.Props.BitFieldMisc
import Verif.Props.CrossTools
import Verif.Props.EndToEnd
import Verif.Props.RegHistory
import Verif.Props.References
import Verif.Props.DeckLists
import Verif.Props.ContextReset
import Verif.Props.Idle
import Verif.Props.Manual
import Verif.Props.Trace
import Verif.Props.Percent
import Verif.Props.Twice
import Verif.Props.Master
import Verif.Props.LsbLeft
import Verif.Props.Overflow
import Verif.Props.ListingBack
import Verif.Props.SymTrace
import Verif.Props.DetailsBack
import Verif.Props.SymText
import Verif.Props.Verbose
import Verif.Props.Options
import Verif.Props.CheckText
import Verif.Props.CheckBack
import Verif.Spec.CommandLine
import Verif.Props.CommandLine
import Verif.Props.CommandTools
import Verif.Spec.Status
import Verif.Model.Status
import Verif.Props.Status
import Verif.Spec.IntText
import Verif.Spec.Pages
import Verif.Props.GenArgs
import Verif.Props.Pages
import Verif.Spec.Order
import Verif.Props.Order
import Verif.Model.Repr
import Verif.Spec.Repr
import Verif.Lemmas.Repr
import Verif.Props.SymBack
import Verif.Props.SymOut
import Verif.Props.Text
import Verif.Model.Calls
import Verif.Spec.Calls
import Verif.Props.Calls
import Verif.Model.LastWords
import Verif.Spec.LastWords
import Verif.Lemmas.LastWords
import Verif.Lemmas.LastWordsOpt
import Verif.Props.LastWords
import Verif.Props.LastWordsEnd
import Verif.Model.Messages
import Verif.Spec.Messages
import Verif.Lemmas.Messages
import Verif.Props.Messages
import Verif.Props.MessagesInstr
import Verif.Props.MessagesWord
import Verif.Props.MessagesReg
import Verif.Model.TableText
import Verif.Spec.TableText
import Verif.Lemmas.TableText
import Verif.Props.TableText
import Verif.Spec.Named
import Verif.Lemmas.Named
import Verif.Props.NamedTools
import Verif.Props.Named
import Verif.Spec.TableII
import Verif.Spec.Documents
import Verif.Props.TableII
import Verif.Props.Documents
import Verif.Props.DocumentsSym
import Verif.Spec.Intersperse
import Verif.Lemmas.Intersperse
import Verif.Lemmas.Renumber
import Verif.Lemmas.SameDecks
import Verif.Props.Intersperse
import Verif.Spec.Inline
import Verif.Lemmas.Inline
import Verif.Props.Inline
import Verif.Props.Display
import Verif.Model.Newlines
import Verif.Spec.Newlines
import Verif.Props.Newlines
import Verif.Spec.CallLine
import Verif.Props.CallLine
import Verif.Model.NoBits
import Verif.Spec.NoBits
import Verif.Props.NoBits
import Verif.Props.Ends
import Verif.Spec.Unread
import Verif.Lemmas.Unread
import Verif.Props.Unread
import Verif.Props.Groups
import Verif.Props.Parts
import Verif.Props.Segments
import Verif.Props.MainMemory
import Verif.Props.Divide
import Verif.Props.LiveWords
import Verif.Props.Help
import Verif.Props.Rename
import Verif.Model.Values
import Verif.Spec.Values
import Verif.Lemmas.Values
import Verif.Props.Values
import Verif.Model.Disk
import Verif.Spec.Disk
import Verif.Lemmas.Disk
import Verif.Lemmas.DiskTools
import Verif.Props.Disk
import Verif.Props.Bom
import Verif.Model.Keys
import Verif.Spec.Keys
import Verif.Lemmas.Keys
import Verif.Props.Keys
import Verif.Props.Operands
import Verif.Props.Punched
import Verif.Model.Protocol
import Verif.Lemmas.Protocol
import Verif.Props.Protocol
import Verif.Model.Crash
import Verif.Spec.Crash
import Verif.Lemmas.Crash
import Verif.Props.Crash
import Verif.Lemmas.CrashPages
import Verif.Props.CrashPages
import Verif.Model.Parallel
import Verif.Lemmas.Parallel
import Verif.Props.Parallel
import Verif.Props.Frame
import Verif.Props.FieldKeys
import Verif.Props.MakeCodes
import Verif.Props.Moving
import Verif.Props.Layouts
import Verif.Props.MovingTools
import Verif.Props.HandedOut
import Verif.Lemmas.AnyLayout
import Verif.Props.AnyLayout
import Verif.Props.Passes
import Verif.Model.TableObjects
import Verif.Model.AnyNames
import Verif.Props.TableObjects
import Verif.Props.AnyNames
import Verif.Model.Threads
import Verif.Spec.Threads
import Verif.Props.Threads
import Verif.Model.ParallelPages
import Verif.Props.ParallelPages
import Verif.Model.Takers
import Verif.Spec.Takers
import Verif.Props.Takers
import Verif.Model.Sharers
import Verif.Spec.Sharers
import Verif.Props.Sharers
import Verif.Model.Encoded
import Verif.Spec.Encoded
import Verif.Props.Encoded
import Verif.Model.EncodedList
import Verif.Spec.EncodedList
import Verif.Props.EncodedList
import Verif.Model.EncodedSym
import Verif.Props.EncodedSym
import Verif.Model.Clearers
import Verif.Spec.Clearers
import Verif.Props.Clearers
import Verif.Model.EncodedGen
import Verif.Props.EncodedGen
import Verif.Model.DigitLimit
import Verif.Props.DigitLimit
import Verif.Model.FileClearers
import Verif.Spec.FileClearers
import Verif.Props.FileClearers
import Verif.Props.ControlNames
import Verif.Props.AssemblerShort
