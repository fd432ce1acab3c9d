import Verif.Model.Datfile
import Verif.Props.C01_C03_Integers
import Verif.Props.C04_C05_Floats
import Verif.Props.C06_C07_Strings
import Verif.Props.C08_C10_Readers
import Verif.Props.C11_C15_RoundTrip
import Verif.Props.C16_StructFormats
import Verif.Props.C17_Versions
import Verif.Props.C28_Truncation
import Verif.Props.C28_Completed
import Verif.Props.C28_Cut
import Verif.Proof.DecideWF
import Verif.Proof.SamplesWF
import Verif.Model.Io
import Verif.Props.C15_Anomalies
import Verif.Props.C15_Pieces
import Verif.Props.C19_Slots
import Verif.Props.C24_C26_Files
import Verif.Props.C33_Effort
import Verif.Props.C38_Header
import Verif.Props.C23_Sizes
import Verif.Props.C36_C37_Errors
import Verif.Props.C20_C21_C35_Conversion
import Verif.Props.C18_UnitParts
import Verif.Props.C29_StoredCounts
import Verif.Props.C30_TerrainTables
import Verif.Props.C27_Edits
import Verif.Props.C27_HotKeys
import Verif.Props.C32_ListEdits
import Verif.Props.C31_FixedLists
import Verif.Props.C34_Json
import Verif.Props.C34_Fields
import Verif.Props.C40_UpgradeAndBack
import Verif.Props.C41_ValidJson
import Verif.Props.C42_ReadErrors
import Verif.Props.C43_Readme
import Verif.Props.C44_Histories
import Verif.Props.C45_Objects
import Verif.Props.C46_Types
import Verif.Props.C47_SavingObjects
import Verif.Props.C48_TypedPrograms
import Verif.Props.C47_Dynamic
import Verif.Props.C47_AnyObjects
import Verif.Props.C49_Concurrency
import Verif.Props.C50_Copies
import Verif.Props.C03_C05_C06_Fields
import Verif.Props.C51_FileStatements
import Verif.Props.C52_Equality
import Verif.Props.C53_Grammar
import Verif.Props.C54_Exceptions
import Verif.Props.C55_Optimized
import Verif.Props.C56_Scripts
import Verif.Props.C57_TypedScripts
import Verif.Props.C58_Threads
import Verif.Props.C59_Repr
import Verif.Tests.RepoTests
import Verif.Props.C23_Read
import Verif.Props.C60_Source
import Verif.Props.C61_SourceWriters
import Verif.Props.C62_SourceIo
import Verif.Props.C63_SourceOptimized
import Verif.Props.C64_SourceRoom
import Verif.Props.C65_SourceText
import Verif.Props.C66_SourceScripts
import Verif.Props.C67_SourcePrimitives
import Verif.Props.C68_SourceGuarantees
import Verif.Props.C69_SourceRecords
import Verif.Props.C70_SourceEdits
import Verif.Props.C71_Grammar
import Verif.Props.C72_Statements
import Verif.Props.C73_Lexical
