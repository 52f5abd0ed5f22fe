import Verif.Props.C01_C04_Escape
import Verif.Props.C05_Writer
import Verif.Props.C06_RoundTrip
import Verif.Props.C31_Enums
import Verif.Props.C09_C10_ParaIds
import Verif.Props.C11_Ids
import Verif.Props.C13_C15_Media
import Verif.Props.C45_Parts
import Verif.Props.C07_C08_Strings
import Verif.Props.C13_C26_Written
import Verif.Props.C12_C46_WrittenIds
import Verif.Props.C44_Headings
import Verif.Props.C27_C28_AutoToc
import Verif.Props.C41_C43_Pictures
import Verif.Props.C40_Setters
import Verif.Props.C38_RawText
import Verif.Props.C39_Cells
import Verif.Props.C29_Fields
import Verif.Props.C30_Instr
import Verif.Props.C16_C17_Package
import Verif.Props.C16_Differs
import Verif.Props.C18_C22_Relations
import Verif.Props.C47_C50_Writes
import Verif.Props.C19_Headers
import Verif.Props.C42_PartRels
import Verif.Props.C23_Numbering
import Verif.Props.C24_C25_Comments
import Verif.Props.C07_C26_Package
import Verif.Props.C32_XmlData
import Verif.Props.C33_FlatOpc
import Verif.Props.C34_Types
import Verif.Props.C35_Skip
import Verif.Props.C36_RunFormatting
import Verif.Lemmas.ReadParaProps
import Verif.Lemmas.ReadSection
import Verif.Lemmas.ReadFrom
import Verif.Lemmas.ReadParaProperty
import Verif.Spec.KeptParagraph
import Verif.Props.C52_PageSetup
import Verif.Props.C51_ParagraphFormatting
import Verif.Lemmas.ReadTableProps
import Verif.Lemmas.ReadTableFormat
import Verif.Spec.KeptTable
import Verif.Props.C53_TableFormatting
import Verif.Props.C37_Body
import Verif.Props.C54_Numbering
import Verif.Props.C55_Styles
import Verif.Props.C56_Lookup
import Verif.Props.C56_Sources
import Verif.Props.C55_Toc
import Verif.Props.C57_Comments
import Verif.Props.C58_Settings
import Verif.Props.C59_Parts
import Verif.Props.C60_CustomProperties
import Verif.Model.StoreComments
import Verif.Model.ReadWeb
import Verif.Model.ReadDocx
import Verif.Spec.Ranges
import Verif.Lemmas.ReadFile
import Verif.Lemmas.PackedFile
import Verif.Lemmas.FileParts
import Verif.Lemmas.FileRead
import Verif.Lemmas.StoredRanges
import Verif.Props.C61_ReadFile
import Verif.Lemmas.ReadPictures
import Verif.Lemmas.PicturesAgain
import Verif.Props.C62_Pictures
import Verif.Spec.ReadEnds
import Verif.Spec.AllCopied
import Verif.Lemmas.ReadEnds
import Verif.Lemmas.WrittenTidy
import Verif.Lemmas.WrittenFit
import Verif.Lemmas.WrittenEnds
import Verif.Lemmas.WrittenCalm
import Verif.Lemmas.WrittenHarmless
import Verif.Lemmas.WrittenSure
import Verif.Lemmas.WrittenComplete
import Verif.Props.C63_Ends
import Verif.Props.C63_Written
import Verif.Props.C65_Succeeds
import Verif.Lemmas.Resaved
import Verif.Lemmas.ReadBooks
import Verif.Props.C66_Resave
import Verif.Props.C67_ReadThenSaved
import Verif.Spec.AsRead
import Verif.Lemmas.AsRead
import Verif.Props.C68_WhatIsLost
import Verif.Lemmas.Steps
import Verif.Spec.Outcome
import Verif.Props.C69_OneOutcome
import Verif.Model.ReadXml
import Verif.Spec.FlatRead
import Verif.Lemmas.FlatRead
import Verif.Lemmas.FlatWritten
import Verif.Lemmas.FlatSteps
import Verif.Props.C70_FlatFile
import Verif.Lemmas.LinksAgain
import Verif.Lemmas.Listed
import Verif.Props.C71_Links
import Verif.Props.C72_ReadThenSaves
import Verif.Props.C73_Sections
import Verif.Props.C74_Toc
import Verif.Lemmas.JsonRead
import Verif.Lemmas.JsonSame
import Verif.Props.C75_Json
import Verif.Props.C76_Ask
import Verif.Props.C77_Js
import Verif.Props.C78_JsFormat
import Verif.Props.C78_JsParagraph
import Verif.Props.C78_JsTable
import Verif.Props.C79_JsLinks
import Verif.Props.C80_JsNumbering
import Verif.Model.JsFile
import Verif.Spec.JsFile
import Verif.Lemmas.JsFile
import Verif.Props.C81_JsParts
import Verif.Spec.JsSetup
import Verif.Lemmas.JsSetup
import Verif.Props.C82_JsSetup
import Verif.Props.C83_JsStyles
import Verif.Props.C83_Read
import Verif.Props.C85_JsReadBack
import Verif.Props.C85_Page
import Verif.Props.C65_Js
import Verif.Props.C77_Program
import Verif.Spec.JsNotes
import Verif.Lemmas.JsNotes
import Verif.Props.C20_Program
import Verif.Props.C63_Cut
import Verif.Props.C84_JsToc
