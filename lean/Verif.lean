import Verif.Proofs.Utf8Iter
import Verif.Proofs.Utf8Spec
import Verif.Proofs.Walk
import Verif.Proofs.MixedFacts
import Verif.Proofs.Mixed
import Verif.Proofs.MixedBlock
import Verif.Proofs.MixedText
import Verif.Properties.Utf8Read
import Verif.Properties.Utf8Write
import Verif.Properties.Safety
import Verif.Properties.Append
import Verif.Properties.Lookup
import Verif.Properties.Grapheme
import Verif.Properties.GraphemeAt
import Verif.Properties.Tables
import Verif.Properties.Normalize
import Verif.Properties.Idempotence
import Verif.Properties.Uax15
import Verif.Properties.Generators
import Verif.Properties.Ucd
import Verif.Properties.TextSafety
import Verif.Properties.Truncate
import Verif.Properties.Fixpoints
import Verif.Properties.NormalizeUtf8
import Verif.Properties.Script
import Verif.Properties.Std
import Verif.Properties.History
import Verif.Properties.Examples
import Verif.Properties.Cpp
import Verif.Properties.Mixed
import Verif.Properties.Equivalence
import Verif.Model.Threads
import Verif.Spec.Threads
import Verif.Properties.Threads
import Verif.Model.Cursors
import Verif.Model.Views
import Verif.Spec.Views
import Verif.Proofs.Views
import Verif.Properties.Views
import Verif.Properties.Platform
import Verif.Properties.TextSafetyUtf8
import Verif.Spec.Cursors
import Verif.Proofs.Cursors
import Verif.Properties.Cursors
import Verif.Model.Throw
import Verif.Spec.Throw
import Verif.Proofs.Throw
import Verif.Properties.Throw
import Verif.Tests.Suite
import Verif.Spec.Octets
import Verif.Proofs.Octets
import Verif.Proofs.OctetsFwd
import Verif.Properties.Octets
import Verif.Properties.GraphemeLoop
import Verif.Model.Cost
import Verif.Proofs.CostErase
import Verif.Proofs.CostUtf8
import Verif.Proofs.CostTables
import Verif.Proofs.CostGrapheme
import Verif.Proofs.CostNormalize
import Verif.Proofs.CostInst
import Verif.Properties.Cost
import Verif.Model.Layout
import Verif.Spec.Layout
import Verif.Proofs.Layout
import Verif.Properties.Layout
import Verif.Spec.Overwrite
import Verif.Properties.Overwrite
import Verif.Spec.Plain
import Verif.Proofs.Plain
import Verif.Properties.Plain
import Verif.Spec.Size
import Verif.Proofs.Size
import Verif.Properties.Size
import Verif.Model.Search
import Verif.Spec.Search
import Verif.Proofs.Search
import Verif.Proofs.Order
import Verif.Properties.Search
import Verif.Model.Accesses
import Verif.Spec.Accesses
import Verif.Properties.Accesses
import Verif.Spec.Operators
import Verif.Properties.Operators
import Verif.Model.StdSort
import Verif.Proofs.StdSort
import Verif.Proofs.StdSortMap
import Verif.Properties.StdSort
import Verif.Model.SortLog
import Verif.Proofs.SortLog
import Verif.Proofs.SizeC
import Verif.Properties.Utf8Forms
import Verif.Properties.ViewThreads
import Verif.Properties.ViewThrow
import Verif.Properties.Pieces
import Verif.Properties.HeldViews
import Verif.Model.HeldThrow
import Verif.Spec.HeldThrow
import Verif.Properties.HeldThrow
import Verif.Model.HeldThreads
import Verif.Spec.HeldThreads
import Verif.Properties.HeldThreads
import Verif.Model.HeldAccesses
import Verif.Spec.HeldAccesses
import Verif.Proofs.HeldLocal
import Verif.Proofs.HeldCopy
import Verif.Properties.HeldAccesses
import Verif.Spec.Filter
import Verif.Properties.FilterThrow
import Verif.Properties.GraphemeEnd
import Verif.Properties.GraphemeViews
import Verif.Properties.Utf8Views
import Verif.Proofs.MixedExact
import Verif.Properties.NormalSearch
import Verif.Properties.NormalSearchUtf8
import Verif.Properties.NormalSlice
import Verif.Properties.NormalLinked
