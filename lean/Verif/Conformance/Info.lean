import Verif.Conformance.Support

/-! Translated from tests/models/test_info.py by tools/gen_conformance.py. -/

set_option maxRecDepth 100000
set_option linter.unusedVariables false
namespace Verif.Conformance
open Verif Verif.Gen Verif.Pyd

/-- `test_contact_validation_case_contact_full`, tests/models/test_info.py:276 -/
example : (do
  let v1 ← load .Contact (.dict [(p!"name", (.str p!"API Support")), (p!"url", (.str p!"https://www.example.com/support")), (p!"email", (.str p!"support@example.com"))])
  check (!(V.isNone v1))
  let v2 ← get v1 p!"name"
  check (eq v2 (.str p!"API Support")) : Option Unit).isSome = true := by decide +kernel

/-- `test_contact_validation_case_contact_partial`, tests/models/test_info.py:276 -/
example : (do
  let v1 ← load .Contact (.dict [(p!"name", (.str p!"API Support")), (p!"email", (.str p!"support@example.com"))])
  check (!(V.isNone v1))
  let v2 ← get v1 p!"name"
  check (eq v2 (.str p!"API Support")) : Option Unit).isSome = true := by decide +kernel

/-- `test_contact_serialization_case_contact_serialization_empty`, tests/models/test_info.py:291 -/
example : (do
  let v1 ← make .Contact []
  check (eq (dump v1) (.dict [])) : Option Unit).isSome = true := by decide +kernel

/-- `test_contact_serialization_case_contact_serialization_full`, tests/models/test_info.py:291 -/
example : (do
  let v1 ← make .Contact [(p!"name", (.str p!"API Support")), (p!"url", (.str p!"https://www.example.com/support")), (p!"email", (.str p!"support@example.com"))]
  check (eq (dump v1) (.dict [(p!"name", (.str p!"API Support")), (p!"url", (.str p!"https://www.example.com/support")), (p!"email", (.str p!"support@example.com"))])) : Option Unit).isSome = true := by decide +kernel

/-- `test_contact_serialization_case_contact_serialization_partial`, tests/models/test_info.py:291 -/
example : (do
  let v1 ← make .Contact [(p!"name", (.str p!"API Support")), (p!"email", (.str p!"support@example.com"))]
  check (eq (dump v1) (.dict [(p!"name", (.str p!"API Support")), (p!"email", (.str p!"support@example.com"))])) : Option Unit).isSome = true := by decide +kernel

/-- `test_contact_extensions_validation`, tests/models/test_info.py:296 -/
example : (do
  let v1 ← load .Contact (.dict [(p!"name", (.str p!"API Support")), (p!"x-contact-extension", (.str p!"extended info"))])
  let v2 ← get v1 p!"name"
  check (eq v2 (.str p!"API Support"))
  check (eq (extra v1) (.dict [(p!"x-contact-extension", (.str p!"extended info"))]))
  raises (do
    discard (load .Contact (.dict [(p!"name", (.str p!"API Support")), (p!"invalid-extension", (.str p!"value"))])) : Option Unit) : Option Unit).isSome = true := by decide +kernel

/-- `test_license_validation_case_license_name_only`, tests/models/test_info.py:327 -/
example : (do
  let v1 ← load .License (.dict [(p!"name", (.str p!"Apache 2.0"))])
  check (!(V.isNone v1))
  let v2 ← get v1 p!"name"
  check (eq v2 (.str p!"Apache 2.0")) : Option Unit).isSome = true := by decide +kernel

/-- `test_license_validation_case_license_full`, tests/models/test_info.py:327 -/
example : (do
  let v1 ← load .License (.dict [(p!"name", (.str p!"Apache 2.0")), (p!"url", (.str p!"https://www.apache.org/licenses/LICENSE-2.0.html"))])
  check (!(V.isNone v1))
  let v2 ← get v1 p!"name"
  check (eq v2 (.str p!"Apache 2.0")) : Option Unit).isSome = true := by decide +kernel

/-- `test_license_serialization_case_license_serialization_name_only`, tests/models/test_info.py:341 -/
example : (do
  let v1 ← make .License [(p!"name", (.str p!"Apache 2.0"))]
  check (eq (dump v1) (.dict [(p!"name", (.str p!"Apache 2.0"))])) : Option Unit).isSome = true := by decide +kernel

/-- `test_license_serialization_case_license_serialization_full`, tests/models/test_info.py:341 -/
example : (do
  let v1 ← make .License [(p!"name", (.str p!"Apache 2.0")), (p!"url", (.str p!"https://www.apache.org/licenses/LICENSE-2.0.html"))]
  check (eq (dump v1) (.dict [(p!"name", (.str p!"Apache 2.0")), (p!"url", (.str p!"https://www.apache.org/licenses/LICENSE-2.0.html"))])) : Option Unit).isSome = true := by decide +kernel

/-- `test_license_extensions_validation`, tests/models/test_info.py:346 -/
example : (do
  let v1 ← load .License (.dict [(p!"name", (.str p!"Apache 2.0")), (p!"x-license-extension", (.str p!"extended info"))])
  let v2 ← get v1 p!"name"
  check (eq v2 (.str p!"Apache 2.0"))
  check (eq (extra v1) (.dict [(p!"x-license-extension", (.str p!"extended info"))]))
  raises (do
    discard (load .License (.dict [(p!"name", (.str p!"Apache 2.0")), (p!"invalid-extension", (.str p!"value"))])) : Option Unit) : Option Unit).isSome = true := by decide +kernel

/-- `test_info_validation_case_info_minimal`, tests/models/test_info.py:377 -/
example : (do
  let v1 ← load .Info (.dict [(p!"title", (.str p!"AsyncAPI Sample App")), (p!"version", (.str p!"1.0.1"))])
  check (!(V.isNone v1))
  let v2 ← get v1 p!"title"
  check (eq v2 (.str p!"AsyncAPI Sample App"))
  let v3 ← get v1 p!"version"
  check (eq v3 (.str p!"1.0.1")) : Option Unit).isSome = true := by decide +kernel

/-- `test_info_validation_case_info_full`, tests/models/test_info.py:377 -/
example : (do
  let v1 ← load .Info (.dict [(p!"title", (.str p!"AsyncAPI Sample App")), (p!"version", (.str p!"1.0.1")), (p!"description", (.str p!"This is a sample app.")), (p!"termsOfService", (.str p!"https://asyncapi.org/terms/")), (p!"contact", (.dict [(p!"name", (.str p!"API Support")), (p!"url", (.str p!"https://www.asyncapi.org/support")), (p!"email", (.str p!"support@asyncapi.org"))])), (p!"license", (.dict [(p!"name", (.str p!"Apache 2.0")), (p!"url", (.str p!"https://www.apache.org/licenses/LICENSE-2.0.html"))])), (p!"externalDocs", (.dict [(p!"description", (.str p!"Find more info here")), (p!"url", (.str p!"https://www.asyncapi.org"))])), (p!"tags", (.list [(.dict [(p!"name", (.str p!"e-commerce"))])]))])
  check (!(V.isNone v1))
  let v2 ← get v1 p!"title"
  check (eq v2 (.str p!"AsyncAPI Sample App"))
  let v3 ← get v1 p!"version"
  check (eq v3 (.str p!"1.0.1")) : Option Unit).isSome = true := by decide +kernel

/-- `test_info_validation_case_info_with_defaults`, tests/models/test_info.py:377 -/
example : (do
  let v1 ← load .Info (.dict [(p!"title", (.str p!"My App")), (p!"version", (.str p!"2.0.0"))])
  check (!(V.isNone v1))
  let v2 ← get v1 p!"title"
  check (eq v2 (.str p!"My App"))
  let v3 ← get v1 p!"version"
  check (eq v3 (.str p!"2.0.0")) : Option Unit).isSome = true := by decide +kernel

/-- `test_info_serialization_case_info_serialization_minimal_required`, tests/models/test_info.py:397 -/
example : (do
  let v1 ← make .Info [(p!"title", (.str p!"AsyncAPI Sample App")), (p!"version", (.str p!"1.0.1"))]
  check (eq (dump v1) (.dict [(p!"title", (.str p!"AsyncAPI Sample App")), (p!"version", (.str p!"1.0.1"))])) : Option Unit).isSome = true := by decide +kernel

/-- `test_info_serialization_case_info_serialization_minimal`, tests/models/test_info.py:397 -/
example : (do
  let v1 ← make .Info [(p!"title", (.str p!"AsyncAPI Sample App")), (p!"version", (.str p!"1.0.1"))]
  check (eq (dump v1) (.dict [(p!"title", (.str p!"AsyncAPI Sample App")), (p!"version", (.str p!"1.0.1"))])) : Option Unit).isSome = true := by decide +kernel

/-- `test_info_serialization_case_info_serialization_with_contact`, tests/models/test_info.py:397 -/
example : (do
  let v1 ← make .Contact [(p!"name", (.str p!"API Support")), (p!"url", (.str p!"https://www.example.com/support")), (p!"email", (.str p!"support@example.com"))]
  let v2 ← make .Info [(p!"title", (.str p!"My App")), (p!"version", (.str p!"1.0.0")), (p!"contact", v1)]
  check (eq (dump v2) (.dict [(p!"title", (.str p!"My App")), (p!"version", (.str p!"1.0.0")), (p!"contact", (.dict [(p!"name", (.str p!"API Support")), (p!"url", (.str p!"https://www.example.com/support")), (p!"email", (.str p!"support@example.com"))]))])) : Option Unit).isSome = true := by decide +kernel

/-- `test_info_serialization_case_info_serialization_with_license`, tests/models/test_info.py:397 -/
example : (do
  let v1 ← make .License [(p!"name", (.str p!"Apache 2.0")), (p!"url", (.str p!"https://www.apache.org/licenses/LICENSE-2.0.html"))]
  let v2 ← make .Info [(p!"title", (.str p!"My App")), (p!"version", (.str p!"1.0.0")), (p!"license", v1)]
  check (eq (dump v2) (.dict [(p!"title", (.str p!"My App")), (p!"version", (.str p!"1.0.0")), (p!"license", (.dict [(p!"name", (.str p!"Apache 2.0")), (p!"url", (.str p!"https://www.apache.org/licenses/LICENSE-2.0.html"))]))])) : Option Unit).isSome = true := by decide +kernel

/-- `test_info_serialization_case_info_serialization_with_external_docs`, tests/models/test_info.py:397 -/
example : (do
  let v1 ← make .ExternalDocumentation [(p!"url", (.str p!"https://www.asyncapi.org")), (p!"description", (.str p!"Find more info here"))]
  let v2 ← make .Info [(p!"title", (.str p!"My App")), (p!"version", (.str p!"1.0.0")), (p!"external_docs", v1)]
  check (eq (dump v2) (.dict [(p!"title", (.str p!"My App")), (p!"version", (.str p!"1.0.0")), (p!"externalDocs", (.dict [(p!"url", (.str p!"https://www.asyncapi.org/")), (p!"description", (.str p!"Find more info here"))]))])) : Option Unit).isSome = true := by decide +kernel

/-- `test_info_serialization_case_info_serialization_with_reference_external_docs`, tests/models/test_info.py:397 -/
example : (do
  let v1 ← make .Reference [(p!"ref", (.str p!"#/components/externalDocs/infoDocs"))]
  let v2 ← make .Info [(p!"title", (.str p!"My App")), (p!"version", (.str p!"1.0.0")), (p!"external_docs", v1)]
  check (eq (dump v2) (.dict [(p!"title", (.str p!"My App")), (p!"version", (.str p!"1.0.0")), (p!"externalDocs", (.dict [(p!"$ref", (.str p!"#/components/externalDocs/infoDocs"))]))])) : Option Unit).isSome = true := by decide +kernel

/-- `test_info_serialization_case_info_serialization_with_tags`, tests/models/test_info.py:397 -/
example : (do
  let v1 ← make .Tag [(p!"name", (.str p!"e-commerce"))]
  let v2 ← make .Tag [(p!"name", (.str p!"user")), (p!"description", (.str p!"User-related messages"))]
  let v3 ← make .Info [(p!"title", (.str p!"My App")), (p!"version", (.str p!"1.0.0")), (p!"tags", (.list [v1, v2]))]
  check (eq (dump v3) (.dict [(p!"title", (.str p!"My App")), (p!"version", (.str p!"1.0.0")), (p!"tags", (.list [(.dict [(p!"name", (.str p!"e-commerce"))]), (.dict [(p!"name", (.str p!"user")), (p!"description", (.str p!"User-related messages"))])]))])) : Option Unit).isSome = true := by decide +kernel

/-- `test_info_with_contact_validation`, tests/models/test_info.py:402 -/
example : (do
  let v1 ← load .Info (.dict [(p!"title", (.str p!"My App")), (p!"version", (.str p!"1.0.0")), (p!"contact", (.dict [(p!"name", (.str p!"API Support")), (p!"url", (.str p!"https://www.example.com/support")), (p!"email", (.str p!"support@example.com"))]))])
  let v2 ← get v1 p!"contact"
  check (!(V.isNone v2))
  let v3 ← get v1 p!"contact"
  check (isA .Contact v3)
  let v4 ← get v1 p!"contact"
  let v5 ← get v4 p!"name"
  check (eq v5 (.str p!"API Support"))
  let v6 ← get v1 p!"contact"
  let v7 ← get v6 p!"url"
  check (eq (strOf v7) (.str p!"https://www.example.com/support"))
  let v8 ← get v1 p!"contact"
  let v9 ← get v8 p!"email"
  check (eq v9 (.str p!"support@example.com")) : Option Unit).isSome = true := by decide +kernel

/-- `test_info_with_license_validation`, tests/models/test_info.py:421 -/
example : (do
  let v1 ← load .Info (.dict [(p!"title", (.str p!"My App")), (p!"version", (.str p!"1.0.0")), (p!"license", (.dict [(p!"name", (.str p!"Apache 2.0")), (p!"url", (.str p!"https://www.apache.org/licenses/LICENSE-2.0.html"))]))])
  let v2 ← get v1 p!"license"
  check (!(V.isNone v2))
  let v3 ← get v1 p!"license"
  check (isA .License v3)
  let v4 ← get v1 p!"license"
  let v5 ← get v4 p!"name"
  check (eq v5 (.str p!"Apache 2.0"))
  let v6 ← get v1 p!"license"
  let v7 ← get v6 p!"url"
  check (eq (strOf v7) (.str p!"https://www.apache.org/licenses/LICENSE-2.0.html")) : Option Unit).isSome = true := by decide +kernel

/-- `test_info_with_external_docs_validation`, tests/models/test_info.py:440 -/
example : (do
  let v1 ← load .Info (.dict [(p!"title", (.str p!"My App")), (p!"version", (.str p!"1.0.0")), (p!"externalDocs", (.dict [(p!"description", (.str p!"Find more info here")), (p!"url", (.str p!"https://www.asyncapi.org"))]))])
  let v2 ← get v1 p!"external_docs"
  check (!(V.isNone v2))
  let v3 ← get v1 p!"external_docs"
  check (isA .ExternalDocumentation v3)
  let v4 ← get v1 p!"external_docs"
  let v5 ← get v4 p!"url"
  check (eq (strOf v5) (.str p!"https://www.asyncapi.org/"))
  let v6 ← get v1 p!"external_docs"
  let v7 ← get v6 p!"description"
  check (eq v7 (.str p!"Find more info here")) : Option Unit).isSome = true := by decide +kernel

/-- `test_info_with_reference_external_docs_validation`, tests/models/test_info.py:457 -/
example : (do
  let v1 ← load .Info (.dict [(p!"title", (.str p!"My App")), (p!"version", (.str p!"1.0.0")), (p!"externalDocs", (.dict [(p!"$ref", (.str p!"#/components/externalDocs/infoDocs"))]))])
  let v2 ← get v1 p!"external_docs"
  check (!(V.isNone v2))
  let v3 ← get v1 p!"external_docs"
  check (isA .Reference v3)
  let v4 ← get v1 p!"external_docs"
  let v5 ← get v4 p!"ref"
  check (eq v5 (.str p!"#/components/externalDocs/infoDocs")) : Option Unit).isSome = true := by decide +kernel

/-- `test_info_with_tags_validation`, tests/models/test_info.py:472 -/
example : (do
  let v1 ← load .Info (.dict [(p!"title", (.str p!"My App")), (p!"version", (.str p!"1.0.0")), (p!"tags", (.list [(.dict [(p!"name", (.str p!"e-commerce"))]), (.dict [(p!"name", (.str p!"user")), (p!"description", (.str p!"User-related messages"))])]))])
  let v2 ← get v1 p!"tags"
  check (!(V.isNone v2))
  let v3 ← get v1 p!"tags"
  check (len v3 == 2)
  let v4 ← get v1 p!"tags"
  let v5 ← nth v4 0
  let v6 ← get v5 p!"name"
  check (eq v6 (.str p!"e-commerce"))
  let v7 ← get v1 p!"tags"
  let v8 ← nth v7 1
  let v9 ← get v8 p!"name"
  check (eq v9 (.str p!"user"))
  let v10 ← get v1 p!"tags"
  let v11 ← nth v10 1
  let v12 ← get v11 p!"description"
  check (eq v12 (.str p!"User-related messages")) : Option Unit).isSome = true := by decide +kernel

/-- `test_info_required_fields_validation_error`, tests/models/test_info.py:491 -/
example : (do
  raises (do
    discard (make .Info [(p!"version", (.str p!"1.0.0"))]) : Option Unit)
  raises (do
    discard (make .Info [(p!"title", (.str p!"Test App"))]) : Option Unit)
  raises (do
    discard (make .Info []) : Option Unit) : Option Unit).isSome = true := by decide +kernel

/-- `test_info_extensions_validation`, tests/models/test_info.py:505 -/
example : (do
  let v1 ← load .Info (.dict [(p!"title", (.str p!"My App")), (p!"version", (.str p!"1.0.0")), (p!"x-custom-extension", (.str p!"custom value")), (p!"x-another-extension", (.dict [(p!"key", (.str p!"value"))]))])
  let v2 ← get v1 p!"title"
  check (eq v2 (.str p!"My App"))
  let v3 ← get v1 p!"version"
  check (eq v3 (.str p!"1.0.0"))
  check (eq (extra v1) (.dict [(p!"x-custom-extension", (.str p!"custom value")), (p!"x-another-extension", (.dict [(p!"key", (.str p!"value"))]))]))
  raises (do
    discard (load .Info (.dict [(p!"title", (.str p!"My App")), (p!"version", (.str p!"1.0.0")), (p!"invalid-extension", (.str p!"value"))])) : Option Unit) : Option Unit).isSome = true := by decide +kernel

/-- `test_contact_url_validation`, tests/models/test_info.py:536 -/
example : (do
  let v1 ← make .Contact [(p!"name", (.str p!"Test")), (p!"url", (.str p!"https://example.com"))]
  let v2 ← get v1 p!"url"
  check (eq (strOf v2) (.str p!"https://example.com/"))
  raises (do
    discard (make .Contact [(p!"name", (.str p!"Test")), (p!"url", (.str p!"not-a-url"))]) : Option Unit) : Option Unit).isSome = true := by decide +kernel

/-- `test_contact_email_validation`, tests/models/test_info.py:546 -/
example : (do
  let v1 ← make .Contact [(p!"name", (.str p!"Test")), (p!"email", (.str p!"test@example.com"))]
  let v2 ← get v1 p!"email"
  check (eq v2 (.str p!"test@example.com"))
  raises (do
    discard (make .Contact [(p!"name", (.str p!"Test")), (p!"email", (.str p!"not-an-email"))]) : Option Unit) : Option Unit).isSome = true := by decide +kernel

/-- `test_license_url_validation`, tests/models/test_info.py:556 -/
example : (do
  let v1 ← make .License [(p!"name", (.str p!"MIT")), (p!"url", (.str p!"https://opensource.org/licenses/MIT"))]
  let v2 ← get v1 p!"url"
  check (eq (strOf v2) (.str p!"https://opensource.org/licenses/MIT"))
  raises (do
    discard (make .License [(p!"name", (.str p!"MIT")), (p!"url", (.str p!"not-a-url"))]) : Option Unit) : Option Unit).isSome = true := by decide +kernel

/-- `test_info_terms_of_service_url_validation`, tests/models/test_info.py:566 -/
example : (do
  let v1 ← make .Info [(p!"title", (.str p!"Test")), (p!"version", (.str p!"1.0.0")), (p!"terms_of_service", (.str p!"https://example.com/terms"))]
  let v2 ← get v1 p!"terms_of_service"
  check (eq (strOf v2) (.str p!"https://example.com/terms"))
  raises (do
    discard (make .Info [(p!"title", (.str p!"Test")), (p!"version", (.str p!"1.0.0")), (p!"terms_of_service", (.str p!"not-a-url"))]) : Option Unit) : Option Unit).isSome = true := by decide +kernel

end Verif.Conformance
