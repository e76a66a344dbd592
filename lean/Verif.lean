import Verif.Model.Basic
import Verif.Model.SyncSafe
import Verif.Model.Unsync
import Verif.Model.Stream
import Verif.Model.Header
import Verif.Model.Id3v1
import Verif.Props.SyncSafe
import Verif.Props.Unsync
import Verif.Props.Header
import Verif.Props.Id3v1
import Verif.Props.Url
import Verif.Props.Split
import Verif.Props.Mp3
import Verif.Props.Track
import Verif.Props.TagCloud
import Verif.Props.Bodies
import Verif.Props.PrivBody
import Verif.Props.BodySize
import Verif.Props.Tag22
import Verif.Props.Frame23
import Verif.Props.Tag23
import Verif.Props.Tag24
import Verif.Props.NeedsUnsync
import Verif.Props.Foreign
import Verif.Props.Lookup
import Verif.Props.Padding
import Verif.Props.Tagset
import Verif.Props.Backup
import Verif.Props.Replace
import Verif.Model.Genres
import Verif.Model.TemplateEval
import Verif.Props.TemplateText
import Verif.Props.Template
import Verif.Model.Rename
import Verif.Props.Rename
import Verif.Model.TextFrame
import Verif.Model.Encodings
import Verif.Model.Languages
import Verif.Model.Charset
import Verif.Spec.Tables
import Verif.Props.TemplateFields
import Verif.Props.Tables
import Verif.Props.Charset
import Verif.Model.GenreMatch
import Verif.Spec.Edits
import Verif.Spec.Genres
import Verif.Props.Genres
import Verif.Props.GenresOverlooked
import Verif.Model.Process
import Verif.Spec.Process
import Verif.Props.Process
import Verif.Model.Commands
import Verif.Spec.Commands
import Verif.Proofs.Commands
import Verif.Props.Commands
import Verif.Props.Copies
import Verif.Props.GenreOptions
import Verif.Props.GenreCopied
import Verif.Model.TextCmd
import Verif.Spec.TextCmd
import Verif.Proofs.TextCmd
import Verif.Props.TextCmd
import Verif.Props.TextOptions
import Verif.Model.PopmCmd
import Verif.Spec.PopmCmd
import Verif.Proofs.PopmCmd
import Verif.Props.PopmCmd
import Verif.Props.PopmOptions
import Verif.Model.XtagCmd
import Verif.Spec.XtagCmd
import Verif.Proofs.XtagCmd
import Verif.Props.XtagCmd
import Verif.Props.XtagOptions
import Verif.Model.Report
import Verif.Spec.Report
import Verif.Proofs.Report
import Verif.Proofs.ReportRow
import Verif.Proofs.ReportRun
import Verif.Proofs.ReportGrow
import Verif.Props.Report
import Verif.Props.ReportRuns
import Verif.Model.M3u
import Verif.Spec.M3u
import Verif.Proofs.M3u
import Verif.Props.M3u
import Verif.Props.M3uRuns
import Verif.Model.Main
import Verif.Spec.Main
import Verif.Proofs.Main
import Verif.Props.Main
import Verif.Props.MainAll
import Verif.Model.Json
import Verif.Spec.Json
import Verif.Spec.Dump
import Verif.Proofs.Json
import Verif.Proofs.Dump
import Verif.Proofs.DumpParts
import Verif.Props.Dump
import Verif.Model.Std
import Verif.Spec.Std
import Verif.Spec.Sections
import Verif.Proofs.Std
import Verif.Proofs.StdRead
import Verif.Proofs.Sections
import Verif.Props.Std
import Verif.Props.Sections
import Verif.Model.Scheme
import Verif.Spec.Scheme
import Verif.Spec.SchemeV1
import Verif.Proofs.Scheme
import Verif.Props.Scheme
import Verif.Props.SchemeV1
import Verif.Spec.SchemeWrite
import Verif.Proofs.SchemeWrite
import Verif.Props.SchemeWrite
import Verif.Model.FsTree
import Verif.Spec.FsTree
import Verif.Proofs.FsTree
import Verif.Props.FsTree
import Verif.Props.TrackIn
import Verif.Spec.Heading
import Verif.Proofs.Heading
import Verif.Props.Heading
import Verif.Model.SplitFiles
import Verif.Spec.SplitFiles
import Verif.Proofs.SplitFiles
import Verif.Props.SplitFiles
import Verif.Model.EncodingsCmd
import Verif.Props.EncodingsCmd
import Verif.Model.Manip
import Verif.Spec.Manip
import Verif.Proofs.Manip
import Verif.Props.Manip
import Verif.Model.LoadPath
import Verif.Props.LoadPath
import Verif.Model.CsvFrame
import Verif.Spec.CsvFrame
import Verif.Proofs.CsvFrame
import Verif.Props.CsvFrame
import Verif.Model.Registry
import Verif.Spec.Registry
import Verif.Proofs.Registry
import Verif.Proofs.RegistryEnd
import Verif.Model.Parsers
import Verif.Props.Registry
import Verif.Model.CopyTag
import Verif.Props.CopyTag
import Verif.Model.Direct
import Verif.Props.Direct
import Verif.Props.SchemeLang
import Verif.Props.Sync
import Verif.Model.VbrTags
import Verif.Props.VbrTags
import Verif.Props.Checksum
import Verif.Model.AzTags
import Verif.Spec.AzTags
import Verif.Props.AzTags
import Verif.Model.TextSet
import Verif.Spec.Unicode
import Verif.Spec.TextSet
import Verif.Proofs.Unicode
import Verif.Proofs.TextSet
import Verif.Props.TextSet
import Verif.Model.CommentSet
import Verif.Spec.CommentSet
import Verif.Props.CommentSet
import Verif.Model.Options
import Verif.Spec.Options
import Verif.Proofs.Options
import Verif.Props.Options
import Verif.Model.Pager
import Verif.Spec.Pager
import Verif.Props.Pager
import Verif.Model.Shared
import Verif.Spec.Shared
import Verif.Proofs.Shared
import Verif.Props.Shared
import Verif.Model.Procs
import Verif.Spec.Procs
import Verif.Proofs.Procs
import Verif.Props.Procs
import Verif.Model.RenameProcs
import Verif.Spec.RenameProcs
import Verif.Proofs.RenameProcs
import Verif.Props.RenameProcs
import Verif.Spec.PowerLoss
import Verif.Proofs.PowerLoss
import Verif.Props.PowerLoss
import Verif.Spec.CommandLine
import Verif.Proofs.CommandLine
import Verif.Props.CommandLine
import Verif.Spec.Again
import Verif.Proofs.Again
import Verif.Proofs.AgainCmds
import Verif.Props.Again
import Verif.Spec.Exchange
import Verif.Proofs.Exchange
import Verif.Props.Exchange
import Verif.Model.Display
import Verif.Spec.Display
import Verif.Proofs.Display
import Verif.Props.Display
import Verif.Spec.History
import Verif.Proofs.History
import Verif.Props.History
import Verif.Proofs.Killed
import Verif.Props.Killed
import Verif.Spec.Kills
import Verif.Proofs.Kills
import Verif.Props.Kills
import Verif.Spec.Settle
import Verif.Proofs.Settle
import Verif.Props.Settle
import Verif.Spec.WriteBack
import Verif.Proofs.WriteBack
import Verif.Props.WriteBack
import Verif.Spec.Locality
import Verif.Proofs.Locality
import Verif.Props.Locality
import Verif.Proofs.V1Locality
import Verif.Props.V1Locality
import Verif.Props.SplitRead
import Verif.Props.CloudOrder
import Verif.Props.V1Order
import Verif.Props.Pieces
import Verif.Props.TextOrder
import Verif.Props.TemplateJoin
import Verif.Props.UrlPieces
import Verif.Props.CloudPieces
import Verif.Props.Errors
import Verif.Props.AudioOnly
import Verif.Props.Anywhere
import Verif.Props.Masks
