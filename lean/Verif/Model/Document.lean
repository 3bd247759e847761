import Verif.Model.Pyd
import Verif.Model.Unified
import Verif.Model.RefValidators
import Verif.Gen.Mappings
import Verif.Py.Layout
/-!
# The reference validators as processors of a document

`AsyncAPI3.run_extra_processors` (models/asyncapi.py:277-296) calls the validators on the document it has built. They
look at its objects, change nothing, and raise or return. The document is laid out in memory by `graphOf`; what they do
does not depend on the layout (`C47_any_layout`).
-/
namespace Verif.Document
open Verif Verif.Gen

/-- `UnifiedReferencesValidator()(spec)`, unified_references_validator.py:145-178, called from models/asyncapi.py:292-296. -/
def unified (U : Uni) (doc : V) : Option V :=
  match Unified.validate table U mappings (graphOf doc) with
  | some (.ok ()) => some doc
  | _ => none

/-- `TagsRefValidator()(spec)`, tags_ref_validator.py:35-62. -/
def tags (doc : V) : Option V :=
  match (RefV.validateTags (graphOf doc)).res with
  | .ok () => some doc
  | .error _ => none

/-- `ExternalDocsRefValidator()(spec)`, external_docs_ref_validator.py:27-71. -/
def externalDocs (doc : V) : Option V :=
  match (RefV.validateDocs (graphOf doc)).res with
  | .ok () => some doc
  | .error _ => none

end Verif.Document
