import Verif.Props.C01_C03_Lists
import Verif.Props.C04_Escape
import Verif.Props.C05_Counts
import Verif.Props.C06_C09_Splitter
import Verif.Props.C10_Xref
import Verif.Props.C11_C12_Languages
import Verif.Props.C13_SceneType
import Verif.Props.C14_Chapters
import Verif.Props.C15_C16_Scenes
import Verif.Props.C17_DateTime
import Verif.Props.C18_Foreign
import Verif.Props.C36_Indent
import Verif.Props.C39_SceneTypes
import Verif.Props.C22_Structure
import Verif.Props.C23_World
import Verif.Props.C45_Readable
import Verif.Props.C13_C17_Project
import Verif.Props.C22_Example
import Verif.Props.C38_Vars
import Verif.Props.C38_Project
import Verif.Props.C13_C14_Encoding
import Verif.Props.C20_Cycles
import Verif.Spec.Settled
import Verif.Lemmas.Stable
import Verif.Lemmas.Stable2
import Verif.Lemmas.Stable3
import Verif.Lemmas.Stable4
import Verif.Props.C20_Stable
import Verif.Props.C20_Example
import Verif.Props.C20_Settled
import Verif.Props.C19_C21_File
import Verif.Props.C24_C25_Save
import Verif.Props.C26_C28_Converter
import Verif.Props.C27_C42_Paths
import Verif.Py.Template
import Verif.Model.Export
import Verif.Model.OdtText
import Verif.Model.OdtWriters
import Verif.Spec.Export
import Verif.Lemmas.Export
import Verif.Lemmas.Export2
import Verif.Props.C29_C30_Export
import Verif.Props.C29_Succeeds
import Verif.Py.Ini
import Verif.Model.Config
import Verif.Model.Purge
import Verif.Spec.Config
import Verif.Spec.Purge
import Verif.Lemmas.Ini
import Verif.Lemmas.Ini2
import Verif.Props.C37_Config
import Verif.Props.C41_Purge
import Verif.Py.XTree
import Verif.Spec.Sax
import Verif.Model.OdsWrite
import Verif.Model.OdsRead
import Verif.Spec.Ods
import Verif.Lemmas.Template
import Verif.Lemmas.Sax
import Verif.Props.C33_Import
import Verif.Props.C32_Read
import Verif.Lemmas.Ods
import Verif.Props.C32_Write
import Verif.Props.C41_Yw7
import Verif.Props.C32_False
import Verif.Props.C32_Scenes
import Verif.Props.C47_Lists
import Verif.Model.OdtParse
import Verif.Model.OdtRead
import Verif.Spec.Chunks
import Verif.Lemmas.Chunks
import Verif.Lemmas.Chunks2
import Verif.Lemmas.Chunks3
import Verif.Lemmas.Chunks4
import Verif.Lemmas.Chunks5
import Verif.Lemmas.Chunks6
import Verif.Props.C34_Chunks
import Verif.Spec.Frame
import Verif.Lemmas.Frame
import Verif.Lemmas.Frame2
import Verif.Props.C35_Frame
import Verif.Props.C35_Elements
import Verif.Props.C35_Proof
import Verif.Spec.Markup
import Verif.Lemmas.Markup
import Verif.Lemmas.Markup2
import Verif.Lemmas.Markup3
import Verif.Lemmas.Markup4
import Verif.Lemmas.Markup5
import Verif.Lemmas.Markup6
import Verif.Lemmas.Quot
import Verif.Lemmas.Para
import Verif.Lemmas.Para2
import Verif.Spec.Roundtrip
import Verif.Model.OdtHeader
import Verif.Lemmas.ReadLine
import Verif.Lemmas.ReadLine2
import Verif.Lemmas.ReadPara
import Verif.Lemmas.Title
import Verif.Lemmas.ReadScene
import Verif.Lemmas.ReadManuscript
import Verif.Lemmas.ReadDoc
import Verif.Lemmas.ReadHeader
import Verif.Lemmas.ReadAll
import Verif.Props.C43_Roundtrip
import Verif.Lemmas.Balance
import Verif.Lemmas.Balance2
import Verif.Lemmas.Balance3
import Verif.Lemmas.Nest
import Verif.Lemmas.NestDoc
import Verif.Props.C31_Balanced
import Verif.Spec.NotesWritable
import Verif.Lemmas.NestNotes
import Verif.Lemmas.NestProof
import Verif.Props.C31_Notes
import Verif.Props.C31_Proof
import Verif.Props.C31_Export
import Verif.Spec.Import
import Verif.Lemmas.Import
import Verif.Lemmas.Import2
import Verif.Lemmas.Import3
import Verif.Lemmas.Import4
import Verif.Lemmas.Import5
import Verif.Props.C44_Import
import Verif.Model.OdtSheets
import Verif.Spec.Sheets
import Verif.Lemmas.Plain
import Verif.Lemmas.Sheets
import Verif.Lemmas.Sheets2
import Verif.Lemmas.Sheets3
import Verif.Props.C49_Sheets
import Verif.Lemmas.Desc
import Verif.Lemmas.Desc2
import Verif.Lemmas.Desc3
import Verif.Lemmas.Desc4
import Verif.Props.C50_Descriptions
import Verif.Spec.Writable
import Verif.Props.C51_Writable
import Verif.Spec.Flow
import Verif.Lemmas.Flow
import Verif.Lemmas.Flow2
import Verif.Lemmas.Flow3
import Verif.Lemmas.Flow4
import Verif.Spec.Disk
import Verif.Lemmas.Disk1
import Verif.Lemmas.Disk2
import Verif.Lemmas.Disk3
import Verif.Lemmas.Disk4
import Verif.Lemmas.Disk5
import Verif.Props.C52_Disk
import Verif.Lemmas.Fix1
import Verif.Lemmas.Fix2
import Verif.Lemmas.Fix3
import Verif.Lemmas.Fix4
import Verif.Lemmas.Fix5
import Verif.Lemmas.Fix6
import Verif.Lemmas.Fix7
import Verif.Lemmas.Fix8
import Verif.Lemmas.Fix9
import Verif.Props.C53_Identical
import Verif.Model.OdtProof
import Verif.Spec.Proof
import Verif.Lemmas.Proof1
import Verif.Lemmas.Proof2
import Verif.Lemmas.Proof3
import Verif.Lemmas.Proof4
import Verif.Lemmas.Proof5
import Verif.Lemmas.Proof6
import Verif.Lemmas.Proof7
import Verif.Props.C54_Proof
import Verif.Model.OdtXref
import Verif.Spec.XrefDoc
import Verif.Lemmas.XrefDoc
import Verif.Lemmas.XrefDoc2
import Verif.Lemmas.XrefDoc3
import Verif.Props.C55_XrefDoc
import Verif.Spec.Book
import Verif.Lemmas.Book1
import Verif.Lemmas.Book2
import Verif.Lemmas.Book3
import Verif.Lemmas.Book4
import Verif.Lemmas.Book5
import Verif.Lemmas.Book6
import Verif.Lemmas.Book7
import Verif.Lemmas.Book8
import Verif.Lemmas.Book9
import Verif.Lemmas.Book10
import Verif.Lemmas.Book11
import Verif.Lemmas.Book12
import Verif.Lemmas.Book13
import Verif.Lemmas.Book14
import Verif.Props.C56_Book
import Verif.Spec.LineEnds
import Verif.Props.C57_LineEnds
import Verif.Model.Translations
import Verif.Spec.Translations
import Verif.Lemmas.Translations
import Verif.Props.C58_Translations
import Verif.Model.Inliner
import Verif.Model.Msgfmt
import Verif.Model.Pgettext
import Verif.Model.Opening
import Verif.Model.MainTk
import Verif.Model.OdfMeta
import Verif.Model.DocOpen
import Verif.Spec.Inliner
import Verif.Spec.Msgfmt
import Verif.Spec.Pgettext
import Verif.Spec.Opening
import Verif.Spec.MainTk
import Verif.Spec.OdfMeta
import Verif.Spec.DocOpen
import Verif.Spec.Notes
import Verif.Lemmas.Inliner
import Verif.Lemmas.Msgfmt
import Verif.Lemmas.Msgfmt2
import Verif.Lemmas.Msgfmt3
import Verif.Lemmas.Msgfmt4
import Verif.Lemmas.Msgfmt5
import Verif.Lemmas.Pgettext
import Verif.Lemmas.Opening
import Verif.Props.C59_Inliner
import Verif.Props.C60_Msgfmt
import Verif.Props.C61_Pgettext
import Verif.Props.C62_Opening
import Verif.Props.C63_MainTk
import Verif.Props.C64_OdfMeta
import Verif.Props.C65_DocOpen
import Verif.Lemmas.Notes1
import Verif.Lemmas.Notes2
import Verif.Props.C66_Notes
import Verif.Lemmas.Travel1
import Verif.Lemmas.Once
import Verif.Model.Program
import Verif.Spec.Travel
import Verif.Lemmas.Travel2
import Verif.Lemmas.Travel3
import Verif.Lemmas.Travel4
import Verif.Lemmas.Travel5
import Verif.Props.C67_Travel
import Verif.Props.C67_Example
import Verif.Model.Links
import Verif.Spec.Links
import Verif.Lemmas.Links
import Verif.Lemmas.Links2
import Verif.Lemmas.Links3
import Verif.Lemmas.Links4
import Verif.Props.C68_Links
import Verif.Props.C68_Xref
import Verif.Props.C68_Example
import Verif.Model.Facade
import Verif.Spec.Facade
import Verif.Lemmas.Facade
import Verif.Lemmas.Facade2
import Verif.Props.C69_Facade
import Verif.Model.Samples
import Verif.Spec.Samples
import Verif.Lemmas.Samples
import Verif.Lemmas.Samples2
import Verif.Lemmas.Samples3
import Verif.Props.C70_Samples
import Verif.Spec.Synopsis
import Verif.Lemmas.Synopsis
import Verif.Props.C71_Synopsis
import Verif.Spec.Clean
import Verif.Lemmas.Clean
import Verif.Lemmas.Clean2
import Verif.Props.C72_Clean
import Verif.Spec.States
import Verif.Lemmas.States
import Verif.Lemmas.States2
import Verif.Lemmas.States3
import Verif.Props.C73_States
import Verif.Spec.Shown
import Verif.Lemmas.Shown
import Verif.Lemmas.Shown2
import Verif.Props.C74_Shown
import Verif.Model.Filters
import Verif.Spec.Filters
import Verif.Lemmas.Filters
import Verif.Props.C75_Filters
import Verif.Model.OdfPackage
import Verif.Spec.Package
import Verif.Props.C76_Package
import Verif.Model.BulkPo
import Verif.Spec.BulkPo
import Verif.Lemmas.BulkPo
import Verif.Props.C77_Scripts
import Verif.Lemmas.Twice
import Verif.Lemmas.Twice2
import Verif.Lemmas.Twice3
import Verif.Lemmas.Twice4
import Verif.Lemmas.Twice5
import Verif.Lemmas.Twice6
import Verif.Props.C78_Twice
import Verif.Lemmas.Order
import Verif.Props.C79_Order
import Verif.Lemmas.Sound
import Verif.Lemmas.Sound2
import Verif.Props.C80_InOrder
import Verif.Props.C81_NewProjects
import Verif.Lemmas.GoodIds
import Verif.Props.C82_Kept
