import Verif.Loc
import Verif.LocProps
import Verif.ParsedLanguage
import Verif.ParsedLanguageProps
import Verif.SourceFile
import Verif.SourceFileProps
import Verif.ContentsProps
import Verif.Diff
import Verif.DiffSort
import Verif.DiffEquiv
import Verif.DiffStone
import Verif.DiffOut
import Verif.DiffProps
import Verif.SourceDiffProps
import Verif.Licenses
import Verif.LicensesProps
import Verif.Cli
import Verif.CliProps
import Verif.Tables
import Verif.Detector
import Verif.DetectorProps
import Verif.DetectorSafety
import Verif.DetectorMore
import Verif.DetectorModes
import Verif.DetectorLines
import Verif.DetectorEvidence
import Verif.DetectorScores
import Verif.DetectorFortran
import Verif.QueueProps
import Verif.Ragel
import Verif.Gram.All
import Verif.RagelCheck
import Verif.RagelSafe
import Verif.RagelLines
import Verif.RagelExact
import Verif.RagelHistory
import Verif.RagelStop
import Verif.RagelEnts
import Verif.Lexis
import Verif.LexisStream
import Verif.LexisRef
import Verif.RagelLex
import Verif.RagelLexFast
import Verif.LexisTable
import Verif.CSpec
import Verif.Cert.All
import Verif.Cert.Entities
import Verif.ParserProps
import Verif.LexisProps
import Verif.EntityProps
import Verif.Library
import Verif.LibraryProps
import Verif.RagelEmbed
import Verif.Gram.Emb
import Verif.EmbedSafe
import Verif.Cert.EAll
import Verif.EmbedProps
import Verif.EmbedShift
import Verif.EmbedWhole
import Verif.Cert.EC
import Verif.EmbedPages
import Verif.EmbedRegion
import Verif.EmbedEnclose
import Verif.EmbedRegions
import Verif.EmbedExact
import Verif.Cert.EP
import Verif.EmbedLines
import Verif.ReadAll
import Verif.Cert.Total
import Verif.ReadProps
import Verif.RagelSolid
import Verif.EmbedSolid
import Verif.EmbedNull
import Verif.Cert.WAll
import Verif.Cert.EW
import Verif.Cert.EN
import Verif.Robust
import Verif.PageCounts
import Verif.Mem
import Verif.MemLists
import Verif.MemHistory
import Verif.Sep
import Verif.MemFile
import Verif.MemSpine
import Verif.MemFiles
import Verif.MemCounts
import Verif.MemFileHistory
import Verif.MemFileProps
import Verif.MemHeld
import Verif.MemDiff
import Verif.MemDiffHistory
import Verif.MemSort
import Verif.MemMain
import Verif.MemMainRun
import Verif.MemMainProps
import Verif.MemQueue
import Verif.MemQueueRun
import Verif.MemQueueLeft
import Verif.MemQueueFree
import Verif.MemQueueProps
import Verif.GestaltLangs
import Verif.Gestalt
import Verif.GestaltVal
import Verif.GestaltSpec
import Verif.GestaltCalc
import Verif.GestaltAgree
import Verif.GestaltTable
import Verif.GestaltProps
import Verif.GestaltMaven
import Verif.GestaltNames
import Verif.DiffWords
import Verif.DiffWordsProps
import Verif.Pcre
import Verif.LicenseTable
import Verif.LicenseNames
import Verif.LicenseFound
import Verif.LicenseMore
import Verif.LicensePieces
import Verif.DetectorPcre
import Verif.KnownFile
import Verif.LicenseFile
import Verif.DeltaFile
import Verif.DetectorCalls
import Verif.RubyFile
import Verif.RubyOwners
import Verif.Additive
import Verif.LineEndings
import Verif.AnyText
import Verif.Moves
import Verif.Additions
import Verif.Indented
import Verif.LocEqual
import Verif.RubyView
