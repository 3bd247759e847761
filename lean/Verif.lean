import Verif.Props.Resolve
import Verif.Props.Factory
import Verif.Props.ResolveExamples
import Verif.Props.Unified
import Verif.Props.Slots
import Verif.Props.UnifiedExamples
import Verif.Props.Refs
import Verif.Props.Patterns
import Verif.Props.Fields
import Verif.Props.Processors
import Verif.Props.Valid
import Verif.Props.Dump
import Verif.Props.RefParse
import Verif.Props.Alias
import Verif.Props.Mutate
import Verif.Props.Stable
import Verif.Props.RoundTrip
import Verif.Props.SchemaKind
import Verif.Props.Document
import Verif.Props.Builder
import Verif.Props.Names
import Verif.Props.Conform
import Verif.Props.Rewrite
import Verif.Props.Validators
import Verif.Props.Complaint
import Verif.Props.Grows
import Verif.Props.Live
import Verif.Props.Merge
import Verif.Props.Written
import Verif.Props.Reorder
import Verif.Props.Equal
import Verif.Props.Complain
import Verif.Props.Removes
import Verif.Props.Extract
import Verif.Props.Reenter
import Verif.Props.Address
import Verif.Props.Accept
import Verif.Props.Rename
import Verif.Props.Inline
import Verif.Props.Json
import Verif.Props.Objects
import Verif.Props.Errors
import Verif.Props.Messages
import Verif.Props.Expects
import Verif.Props.Sharing
import Verif.Props.JsonSchema
import Verif.Props.Copy
import Verif.Props.Delete
import Verif.Props.DumpWith
import Verif.Conformance
