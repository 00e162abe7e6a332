import Verif.Model.Basic
import Verif.Model.Prim
import Verif.Model.Text
import Verif.Model.Rate
import Verif.Model.IOCtx
import Verif.Model.Components
import Verif.Model.TrackGroups
import Verif.Lemmas.Prim
import Verif.Lemmas.Text
import Verif.Lemmas.RT
import Verif.Lemmas.RTTac
import Verif.Lemmas.Components
import Verif.Lemmas.TrackGroups
import Verif.Model.Misc
import Verif.Lemmas.Misc
import Verif.Model.Essence
import Verif.Lemmas.Essence
import Verif.Model.Attributes
import Verif.Lemmas.Attributes
import Verif.Model.Bin
import Verif.Lemmas.Bin
import Verif.Model.Obj
import Verif.Lemmas.Obj
import Verif.Lemmas.Mono
import Verif.Lemmas.MonoAll
import Verif.Lemmas.Rel
import Verif.Lemmas.Post
import Verif.Spec.Loaded
import Verif.Lemmas.Loaded
import Verif.Lemmas.LoadedComp
import Verif.Lemmas.LoadedMisc
import Verif.Lemmas.LoadedTracks
import Verif.Lemmas.LoadedBin
import Verif.Lemmas.LoadedEssence
import Verif.Lemmas.LoadedAll
import Verif.Props.Loaded
import Verif.Lemmas.RelAll
import Verif.Lemmas.Ends
import Verif.Lemmas.Congr
import Verif.Model.File
import Verif.Lemmas.Walk
import Verif.Lemmas.Save
import Verif.Lemmas.Open
import Verif.Lemmas.SaveOpen
import Verif.Lemmas.NormVisits
import Verif.Lemmas.FileCore
import Verif.Lemmas.Crash
import Verif.Props.Examples
import Verif.Props.File
import Verif.Props.Crash
import Verif.Lemmas.Rate
import Verif.Props.Fields
import Verif.Props.Rates
import Verif.Lemmas.Resave
import Verif.Lemmas.ResaveFile
import Verif.Spec.Stored
import Verif.Lemmas.Stored
import Verif.Lemmas.StoredNorm
import Verif.Props.Objects
import Verif.Lemmas.Firm
import Verif.Props.Records
import Verif.Props.Limits
import Verif.Model.MobID
import Verif.Lemmas.MobID
import Verif.Props.MobIDs
import Verif.Model.Timeline
import Verif.Props.Timeline
import Verif.Model.Keyframes
import Verif.Lemmas.Bezier
import Verif.Props.Keyframes
import Verif.Props.Bezier
import Verif.Props.Integrate
import Verif.Model.Session
import Verif.Lemmas.Session
import Verif.Props.Session
import Verif.Model.RefList
import Verif.Props.RefList
import Verif.Model.AttrDict
import Verif.Props.AttrDict
import Verif.Model.BinFind
import Verif.Props.BinFind
import Verif.Model.Depends
import Verif.Props.Depends
import Verif.Model.Names
import Verif.Props.Names
import Verif.Props.Chunks
import Verif.Model.Fast
import Verif.Spec.Fast
import Verif.Lemmas.Fast
import Verif.Lemmas.FastRead
import Verif.Lemmas.FastCounts
import Verif.Props.Fast
import Verif.Model.Copy
import Verif.Spec.Copy
import Verif.Lemmas.Copy
import Verif.Props.Copy
import Verif.Spec.Renumber
import Verif.Lemmas.Renumber
import Verif.Props.Editing
import Verif.Model.Work
import Verif.Props.Work
import Verif.Spec.Framing
import Verif.Lemmas.Framing
import Verif.Props.Framing
import Verif.Spec.Format
import Verif.Lemmas.Reads
import Verif.Lemmas.Formats
import Verif.Props.Format
import Verif.Props.Legacy
import Verif.Model.Disk
import Verif.Lemmas.WalkCongr
import Verif.Props.Disk
import Verif.Model.Listing
import Verif.Props.Listing
import Verif.Model.NewFile
import Verif.Props.NewFile
import Verif.Model.Factory
import Verif.Props.Factory
import Verif.Props.Loop
import Verif.Model.Resolve
import Verif.Props.Resolve
import Verif.Model.Dates
import Verif.Props.Dates
import Verif.Props.Numerals
import Verif.Model.Attrs
import Verif.Props.Attrs
import Verif.Model.CopyObj
import Verif.Lemmas.CopyObj
import Verif.Lemmas.WriteRenumber
import Verif.Props.CopyObj
import Verif.Lemmas.FastSafe
import Verif.Lemmas.Raises
import Verif.Lemmas.RaisesAll
import Verif.Lemmas.Within
import Verif.Lemmas.WithinAll
import Verif.Props.Errors
import Verif.Props.FastSafe
import Verif.Props.Reach
import Verif.Model.Closed
import Verif.Props.Closed
import Verif.Model.Defaults
import Verif.Props.Defaults
import Verif.Spec.Size
import Verif.Lemmas.Pays
import Verif.Lemmas.PaysAll
import Verif.Props.Bound
import Verif.Model.FastSave
import Verif.Spec.FastSave
import Verif.Lemmas.FastNames
import Verif.Lemmas.FastSave
import Verif.Props.FastSave
import Verif.Spec.Layout
import Verif.Lemmas.Layout
import Verif.Props.Layout
import Verif.Model.Repr
import Verif.Spec.Repr
import Verif.Lemmas.Repr
import Verif.Spec.Classes
import Verif.Props.Repr
import Verif.Model.Params
import Verif.Lemmas.Params
import Verif.Props.Params
import Verif.Spec.Doubles
import Verif.Lemmas.Doubles
import Verif.Props.Doubles
import Verif.Model.Unset
import Verif.Spec.Unset
import Verif.Lemmas.Unset
import Verif.Lemmas.UnsetCls
import Verif.Lemmas.UnsetObj
import Verif.Lemmas.UnsetSave
import Verif.Props.Unset
import Verif.Model.SharedIds
import Verif.Props.SharedIds
import Verif.Lemmas.Capped
import Verif.Lemmas.CappedAll
import Verif.Model.FastWork
import Verif.Props.FastWork
import Verif.Model.AnyValue
import Verif.Spec.AnyValue
import Verif.Lemmas.AnyValue
import Verif.Lemmas.AnyValueCls
import Verif.Lemmas.AnyValueObj
import Verif.Lemmas.AnyValueSwap
import Verif.Props.AnyValue
import Verif.Model.Embedded
import Verif.Props.Embedded
import Verif.Model.RawID
import Verif.Props.RawID
import Verif.Model.Nested
import Verif.Props.Nested
import Verif.Model.FileDeps
import Verif.Props.FileDeps
import Verif.Model.IterEdit
import Verif.Props.IterEdit
import Verif.Model.WalkEdit
import Verif.Props.WalkEdit
import Verif.Model.PosEdit
import Verif.Props.PosEdit
import Verif.Model.PropGet
import Verif.Props.PropGet
import Verif.Props.WalkOnce
import Verif.Model.ClosedList
import Verif.Props.ClosedList
import Verif.Model.Unchecked
import Verif.Props.Unchecked
import Verif.Props.UncheckedSave
