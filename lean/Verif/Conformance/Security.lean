import Verif.Conformance.Support

/-! Translated from tests/models/test_security.py by tools/gen_conformance.py. -/

set_option maxRecDepth 100000
set_option linter.unusedVariables false
namespace Verif.Conformance
open Verif Verif.Gen Verif.Pyd

/-- `test_correlation_id_validation_case_correlation_id_basic`, tests/models/test_security.py:556 -/
example : (do
  let v1 ← load .CorrelationID (.dict [(p!"location", (.str p!"$message.header#/correlationId"))])
  check (!(V.isNone v1))
  let v2 ← get v1 p!"location"
  check (eq v2 (.str p!"$message.header#/correlationId")) : Option Unit).isSome = true := by decide +kernel

/-- `test_correlation_id_validation_case_correlation_id_full`, tests/models/test_security.py:556 -/
example : (do
  let v1 ← load .CorrelationID (.dict [(p!"description", (.str p!"Default Correlation ID")), (p!"location", (.str p!"$message.header#/correlationId"))])
  check (!(V.isNone v1))
  let v2 ← get v1 p!"location"
  check (eq v2 (.str p!"$message.header#/correlationId")) : Option Unit).isSome = true := by decide +kernel

/-- `test_correlation_id_serialization_case_correlation_id_serialization_basic`, tests/models/test_security.py:570 -/
example : (do
  let v1 ← make .CorrelationID [(p!"location", (.str p!"$message.header#/correlationId"))]
  check (eq (dump v1) (.dict [(p!"location", (.str p!"$message.header#/correlationId"))])) : Option Unit).isSome = true := by decide +kernel

/-- `test_correlation_id_serialization_case_correlation_id_serialization_full`, tests/models/test_security.py:570 -/
example : (do
  let v1 ← make .CorrelationID [(p!"location", (.str p!"$message.header#/correlationId")), (p!"description", (.str p!"Default Correlation ID"))]
  check (eq (dump v1) (.dict [(p!"location", (.str p!"$message.header#/correlationId")), (p!"description", (.str p!"Default Correlation ID"))])) : Option Unit).isSome = true := by decide +kernel

/-- `test_correlation_id_validation_errors_case_correlation_id_invalid_location`, tests/models/test_security.py:586 -/
example : (do
  raises (do
    discard (load .CorrelationID (.dict [(p!"location", (.str p!"invalid_location"))])) : Option Unit) : Option Unit).isSome = true := by decide +kernel

/-- `test_correlation_id_validation_errors_case_correlation_id_empty_location`, tests/models/test_security.py:586 -/
example : (do
  raises (do
    discard (load .CorrelationID (.dict [(p!"location", (.str ([] : Str)))])) : Option Unit) : Option Unit).isSome = true := by decide +kernel

/-- `test_security_scheme_validation_errors_case_security_scheme_http_api_key_missing_name`, tests/models/test_security.py:614 -/
example : (do
  raises (do
    discard (load .SecurityScheme (.dict [(p!"type", (.str p!"httpApiKey")), (p!"in", (.str p!"header"))])) : Option Unit) : Option Unit).isSome = true := by decide +kernel

/-- `test_security_scheme_validation_errors_case_security_scheme_api_key_missing_in`, tests/models/test_security.py:614 -/
example : (do
  raises (do
    discard (load .SecurityScheme (.dict [(p!"type", (.str p!"apiKey")), (p!"name", (.str p!"api_key"))])) : Option Unit) : Option Unit).isSome = true := by decide +kernel

/-- `test_security_scheme_validation_errors_case_security_scheme_http_api_key_missing_in`, tests/models/test_security.py:614 -/
example : (do
  raises (do
    discard (load .SecurityScheme (.dict [(p!"type", (.str p!"httpApiKey")), (p!"name", (.str p!"api_key"))])) : Option Unit) : Option Unit).isSome = true := by decide +kernel

/-- `test_security_scheme_validation_errors_case_security_scheme_http_missing_scheme`, tests/models/test_security.py:614 -/
example : (do
  raises (do
    discard (load .SecurityScheme (.dict [(p!"type", (.str p!"http"))])) : Option Unit) : Option Unit).isSome = true := by decide +kernel

/-- `test_security_scheme_validation_errors_case_security_scheme_api_key_invalid_in`, tests/models/test_security.py:614 -/
example : (do
  raises (do
    discard (load .SecurityScheme (.dict [(p!"type", (.str p!"apiKey")), (p!"in", (.str p!"header")), (p!"name", (.str p!"api_key"))])) : Option Unit) : Option Unit).isSome = true := by decide +kernel

/-- `test_security_scheme_validation_errors_case_security_scheme_http_api_key_invalid_in`, tests/models/test_security.py:614 -/
example : (do
  raises (do
    discard (load .SecurityScheme (.dict [(p!"type", (.str p!"httpApiKey")), (p!"in", (.str p!"user")), (p!"name", (.str p!"api_key"))])) : Option Unit) : Option Unit).isSome = true := by decide +kernel

/-- `test_security_scheme_validation_errors_case_security_scheme_bearer_format_without_bearer_scheme`, tests/models/test_security.py:614 -/
example : (do
  raises (do
    discard (load .SecurityScheme (.dict [(p!"type", (.str p!"http")), (p!"scheme", (.str p!"basic")), (p!"bearerFormat", (.str p!"JWT"))])) : Option Unit) : Option Unit).isSome = true := by decide +kernel

/-- `test_security_scheme_validation_errors_case_security_scheme_bearer_format_without_http_type`, tests/models/test_security.py:614 -/
example : (do
  raises (do
    discard (load .SecurityScheme (.dict [(p!"type", (.str p!"apiKey")), (p!"in", (.str p!"user")), (p!"name", (.str p!"api_key")), (p!"bearerFormat", (.str p!"JWT"))])) : Option Unit) : Option Unit).isSome = true := by decide +kernel

/-- `test_security_scheme_validation_errors_case_security_scheme_oauth2_missing_flows`, tests/models/test_security.py:614 -/
example : (do
  raises (do
    discard (load .SecurityScheme (.dict [(p!"type", (.str p!"oauth2"))])) : Option Unit) : Option Unit).isSome = true := by decide +kernel

/-- `test_security_scheme_validation_errors_case_security_scheme_openid_connect_missing_url`, tests/models/test_security.py:614 -/
example : (do
  raises (do
    discard (load .SecurityScheme (.dict [(p!"type", (.str p!"openIdConnect"))])) : Option Unit) : Option Unit).isSome = true := by decide +kernel

/-- `test_security_scheme_validation_errors_case_security_scheme_scopes_with_wrong_type`, tests/models/test_security.py:614 -/
example : (do
  raises (do
    discard (load .SecurityScheme (.dict [(p!"type", (.str p!"http")), (p!"scheme", (.str p!"basic")), (p!"scopes", (.list [(.str p!"read")]))])) : Option Unit) : Option Unit).isSome = true := by decide +kernel

/-- `test_oauth_flows_validation_errors_case_oauth_flows_implicit_missing_authorization_url`, tests/models/test_security.py:636 -/
example : (do
  raises (do
    discard (load .OAuthFlows (.dict [(p!"implicit", (.dict [(p!"availableScopes", (.dict [(p!"read", (.str p!"Read access"))]))]))])) : Option Unit) : Option Unit).isSome = true := by decide +kernel

/-- `test_oauth_flows_validation_errors_case_oauth_flows_password_missing_token_url`, tests/models/test_security.py:636 -/
example : (do
  raises (do
    discard (load .OAuthFlows (.dict [(p!"password", (.dict [(p!"availableScopes", (.dict [(p!"read", (.str p!"Read access"))]))]))])) : Option Unit) : Option Unit).isSome = true := by decide +kernel

/-- `test_oauth_flows_validation_errors_case_oauth_flows_client_credentials_missing_token_url`, tests/models/test_security.py:636 -/
example : (do
  raises (do
    discard (load .OAuthFlows (.dict [(p!"clientCredentials", (.dict [(p!"availableScopes", (.dict [(p!"read", (.str p!"Read access"))]))]))])) : Option Unit) : Option Unit).isSome = true := by decide +kernel

/-- `test_oauth_flows_validation_errors_case_oauth_flows_authorization_code_missing_authorization_url`, tests/models/test_security.py:636 -/
example : (do
  raises (do
    discard (load .OAuthFlows (.dict [(p!"authorizationCode", (.dict [(p!"tokenUrl", (.str p!"https://authserver.example/token")), (p!"availableScopes", (.dict [(p!"read", (.str p!"Read access"))]))]))])) : Option Unit) : Option Unit).isSome = true := by decide +kernel

/-- `test_oauth_flows_validation_errors_case_oauth_flows_authorization_code_missing_token_url`, tests/models/test_security.py:636 -/
example : (do
  raises (do
    discard (load .OAuthFlows (.dict [(p!"authorizationCode", (.dict [(p!"authorizationUrl", (.str p!"https://authserver.example/auth")), (p!"availableScopes", (.dict [(p!"read", (.str p!"Read access"))]))]))])) : Option Unit) : Option Unit).isSome = true := by decide +kernel

/-- `test_oauth_flow_validation_case_oauth_flow_implicit`, tests/models/test_security.py:656 -/
example : (do
  let v1 ← load .OAuthFlow (.dict [(p!"authorizationUrl", (.str p!"https://authserver.example/auth")), (p!"availableScopes", (.dict [(p!"streetlights:on", (.str p!"Ability to switch lights on")), (p!"streetlights:off", (.str p!"Ability to switch lights off"))]))])
  check (!(V.isNone v1))
  let v2 ← get v1 p!"available_scopes"
  check (!(V.isNone v2)) : Option Unit).isSome = true := by decide +kernel

/-- `test_oauth_flow_validation_case_oauth_flow_client_credentials`, tests/models/test_security.py:656 -/
example : (do
  let v1 ← load .OAuthFlow (.dict [(p!"tokenUrl", (.str p!"https://authserver.example/token")), (p!"availableScopes", (.dict [(p!"streetlights:on", (.str p!"Ability to switch lights on")), (p!"streetlights:off", (.str p!"Ability to switch lights off"))]))])
  check (!(V.isNone v1))
  let v2 ← get v1 p!"available_scopes"
  check (!(V.isNone v2)) : Option Unit).isSome = true := by decide +kernel

/-- `test_oauth_flow_validation_case_oauth_flow_authorization_code`, tests/models/test_security.py:656 -/
example : (do
  let v1 ← load .OAuthFlow (.dict [(p!"authorizationUrl", (.str p!"https://authserver.example/auth")), (p!"tokenUrl", (.str p!"https://authserver.example/token")), (p!"refreshUrl", (.str p!"https://authserver.example/refresh")), (p!"availableScopes", (.dict [(p!"streetlights:on", (.str p!"Ability to switch lights on")), (p!"streetlights:off", (.str p!"Ability to switch lights off"))]))])
  check (!(V.isNone v1))
  let v2 ← get v1 p!"available_scopes"
  check (!(V.isNone v2)) : Option Unit).isSome = true := by decide +kernel

/-- `test_oauth_flow_serialization_case_oauth_flow_serialization_implicit`, tests/models/test_security.py:671 -/
example : (do
  let v1 ← make .OAuthFlow [(p!"authorization_url", (.str p!"https://authserver.example/auth")), (p!"available_scopes", (.dict [(p!"streetlights:on", (.str p!"Ability to switch lights on")), (p!"streetlights:off", (.str p!"Ability to switch lights off"))]))]
  check (eq (dump v1) (.dict [(p!"authorizationUrl", (.url .any ((urlForm p!"https://authserver.example/auth").getD []))), (p!"availableScopes", (.dict [(p!"streetlights:on", (.str p!"Ability to switch lights on")), (p!"streetlights:off", (.str p!"Ability to switch lights off"))]))])) : Option Unit).isSome = true := by decide +kernel

/-- `test_oauth_flow_serialization_case_oauth_flow_serialization_client_credentials`, tests/models/test_security.py:671 -/
example : (do
  let v1 ← make .OAuthFlow [(p!"token_url", (.str p!"https://authserver.example/token")), (p!"available_scopes", (.dict [(p!"streetlights:on", (.str p!"Ability to switch lights on")), (p!"streetlights:off", (.str p!"Ability to switch lights off"))]))]
  check (eq (dump v1) (.dict [(p!"tokenUrl", (.url .any ((urlForm p!"https://authserver.example/token").getD []))), (p!"availableScopes", (.dict [(p!"streetlights:on", (.str p!"Ability to switch lights on")), (p!"streetlights:off", (.str p!"Ability to switch lights off"))]))])) : Option Unit).isSome = true := by decide +kernel

/-- `test_oauth_flow_serialization_case_oauth_flow_serialization_authorization_code`, tests/models/test_security.py:671 -/
example : (do
  let v1 ← make .OAuthFlow [(p!"authorization_url", (.str p!"https://authserver.example/auth")), (p!"token_url", (.str p!"https://authserver.example/token")), (p!"refresh_url", (.str p!"https://authserver.example/refresh")), (p!"available_scopes", (.dict [(p!"streetlights:on", (.str p!"Ability to switch lights on")), (p!"streetlights:off", (.str p!"Ability to switch lights off"))]))]
  check (eq (dump v1) (.dict [(p!"authorizationUrl", (.url .any ((urlForm p!"https://authserver.example/auth").getD []))), (p!"tokenUrl", (.url .any ((urlForm p!"https://authserver.example/token").getD []))), (p!"refreshUrl", (.url .any ((urlForm p!"https://authserver.example/refresh").getD []))), (p!"availableScopes", (.dict [(p!"streetlights:on", (.str p!"Ability to switch lights on")), (p!"streetlights:off", (.str p!"Ability to switch lights off"))]))])) : Option Unit).isSome = true := by decide +kernel

/-- `test_oauth_flows_validation_case_oauth_flows_basic`, tests/models/test_security.py:688 -/
example : (do
  let v1 ← load .OAuthFlows (.dict [(p!"implicit", (.dict [(p!"authorizationUrl", (.str p!"https://authserver.example/auth")), (p!"availableScopes", (.dict [(p!"streetlights:on", (.str p!"Ability to switch lights on"))]))]))])
  check (!(V.isNone v1))
  let v2 ← get v1 p!"implicit"
  check (!(V.isNone v2)) : Option Unit).isSome = true := by decide +kernel

/-- `test_oauth_flows_validation_case_oauth_flows_full`, tests/models/test_security.py:688 -/
example : (do
  let v1 ← load .OAuthFlows (.dict [(p!"implicit", (.dict [(p!"authorizationUrl", (.str p!"https://authserver.example/auth")), (p!"availableScopes", (.dict [(p!"streetlights:on", (.str p!"Ability to switch lights on"))]))])), (p!"password", (.dict [(p!"tokenUrl", (.str p!"https://authserver.example/token")), (p!"availableScopes", (.dict [(p!"streetlights:on", (.str p!"Ability to switch lights on"))]))])), (p!"clientCredentials", (.dict [(p!"tokenUrl", (.str p!"https://authserver.example/token")), (p!"availableScopes", (.dict [(p!"streetlights:on", (.str p!"Ability to switch lights on"))]))])), (p!"authorizationCode", (.dict [(p!"authorizationUrl", (.str p!"https://authserver.example/auth")), (p!"tokenUrl", (.str p!"https://authserver.example/token")), (p!"availableScopes", (.dict [(p!"streetlights:on", (.str p!"Ability to switch lights on"))]))]))])
  check (!(V.isNone v1))
  let v2 ← get v1 p!"implicit"
  check (!(V.isNone v2)) : Option Unit).isSome = true := by decide +kernel

/-- `test_oauth_flows_serialization_case_oauth_flows_serialization_empty`, tests/models/test_security.py:704 -/
example : (do
  let v1 ← make .OAuthFlows []
  check (eq (dump v1) (.dict [])) : Option Unit).isSome = true := by decide +kernel

/-- `test_oauth_flows_serialization_case_oauth_flows_serialization_basic`, tests/models/test_security.py:704 -/
example : (do
  let v1 ← make .OAuthFlow [(p!"authorization_url", (.str p!"https://authserver.example/auth")), (p!"available_scopes", (.dict [(p!"streetlights:on", (.str p!"Ability to switch lights on"))]))]
  let v2 ← make .OAuthFlows [(p!"implicit", v1)]
  check (eq (dump v2) (.dict [(p!"implicit", (.dict [(p!"authorizationUrl", (.url .any ((urlForm p!"https://authserver.example/auth").getD []))), (p!"availableScopes", (.dict [(p!"streetlights:on", (.str p!"Ability to switch lights on"))]))]))])) : Option Unit).isSome = true := by decide +kernel

/-- `test_oauth_flows_serialization_case_oauth_flows_serialization_full`, tests/models/test_security.py:704 -/
example : (do
  let v1 ← make .OAuthFlow [(p!"authorization_url", (.str p!"https://authserver.example/auth")), (p!"available_scopes", (.dict [(p!"streetlights:on", (.str p!"Ability to switch lights on"))]))]
  let v2 ← make .OAuthFlow [(p!"token_url", (.str p!"https://authserver.example/token")), (p!"available_scopes", (.dict [(p!"streetlights:on", (.str p!"Ability to switch lights on"))]))]
  let v3 ← make .OAuthFlow [(p!"token_url", (.str p!"https://authserver.example/token")), (p!"available_scopes", (.dict [(p!"streetlights:on", (.str p!"Ability to switch lights on"))]))]
  let v4 ← make .OAuthFlow [(p!"authorization_url", (.str p!"https://authserver.example/auth")), (p!"token_url", (.str p!"https://authserver.example/token")), (p!"available_scopes", (.dict [(p!"streetlights:on", (.str p!"Ability to switch lights on"))]))]
  let v5 ← make .OAuthFlows [(p!"implicit", v1), (p!"password", v2), (p!"client_credentials", v3), (p!"authorization_code", v4)]
  check (eq (dump v5) (.dict [(p!"implicit", (.dict [(p!"authorizationUrl", (.url .any ((urlForm p!"https://authserver.example/auth").getD []))), (p!"availableScopes", (.dict [(p!"streetlights:on", (.str p!"Ability to switch lights on"))]))])), (p!"password", (.dict [(p!"tokenUrl", (.url .any ((urlForm p!"https://authserver.example/token").getD []))), (p!"availableScopes", (.dict [(p!"streetlights:on", (.str p!"Ability to switch lights on"))]))])), (p!"clientCredentials", (.dict [(p!"tokenUrl", (.url .any ((urlForm p!"https://authserver.example/token").getD []))), (p!"availableScopes", (.dict [(p!"streetlights:on", (.str p!"Ability to switch lights on"))]))])), (p!"authorizationCode", (.dict [(p!"authorizationUrl", (.url .any ((urlForm p!"https://authserver.example/auth").getD []))), (p!"tokenUrl", (.url .any ((urlForm p!"https://authserver.example/token").getD []))), (p!"availableScopes", (.dict [(p!"streetlights:on", (.str p!"Ability to switch lights on"))]))]))])) : Option Unit).isSome = true := by decide +kernel

/-- `test_security_scheme_validation_case_security_scheme_http`, tests/models/test_security.py:725 -/
example : (do
  let v1 ← load .SecurityScheme (.dict [(p!"type", (.str p!"http")), (p!"scheme", (.str p!"bearer")), (p!"bearerFormat", (.str p!"JWT"))])
  check (!(V.isNone v1))
  let v2 ← get v1 p!"type_"
  check (eq v2 (.str p!"http")) : Option Unit).isSome = true := by decide +kernel

/-- `test_security_scheme_validation_case_security_scheme_oauth2`, tests/models/test_security.py:725 -/
example : (do
  let v1 ← load .SecurityScheme (.dict [(p!"type", (.str p!"oauth2")), (p!"description", (.str p!"Flows to support OAuth 2.0")), (p!"flows", (.dict [(p!"implicit", (.dict [(p!"authorizationUrl", (.str p!"https://authserver.example/auth")), (p!"availableScopes", (.dict [(p!"streetlights:on", (.str p!"Ability to switch lights on"))]))]))])), (p!"scopes", (.list [(.str p!"streetlights:on")]))])
  check (!(V.isNone v1))
  let v2 ← get v1 p!"type_"
  check (eq v2 (.str p!"oauth2")) : Option Unit).isSome = true := by decide +kernel

/-- `test_security_scheme_validation_case_security_scheme_api_key`, tests/models/test_security.py:725 -/
example : (do
  let v1 ← load .SecurityScheme (.dict [(p!"type", (.str p!"apiKey")), (p!"in", (.str p!"user")), (p!"name", (.str p!"api_key"))])
  check (!(V.isNone v1))
  let v2 ← get v1 p!"type_"
  check (eq v2 (.str p!"apiKey")) : Option Unit).isSome = true := by decide +kernel

/-- `test_security_scheme_serialization_case_security_scheme_serialization_http`, tests/models/test_security.py:740 -/
example : (do
  let v1 ← make .SecurityScheme [(p!"type_", (.str p!"http")), (p!"scheme", (.str p!"bearer")), (p!"bearer_format", (.str p!"JWT"))]
  check (eq (dump v1) (.dict [(p!"type", (.str p!"http")), (p!"scheme", (.str p!"bearer")), (p!"bearerFormat", (.str p!"JWT"))])) : Option Unit).isSome = true := by decide +kernel

/-- `test_security_scheme_serialization_case_security_scheme_serialization_api_key`, tests/models/test_security.py:740 -/
example : (do
  let v1 ← make .SecurityScheme [(p!"type_", (.str p!"apiKey")), (p!"in_", (.str p!"user")), (p!"name", (.str p!"api_key"))]
  check (eq (dump v1) (.dict [(p!"type", (.str p!"apiKey")), (p!"in", (.str p!"user")), (p!"name", (.str p!"api_key"))])) : Option Unit).isSome = true := by decide +kernel

/-- `test_security_scheme_serialization_case_security_scheme_serialization_oauth2`, tests/models/test_security.py:740 -/
example : (do
  let v1 ← make .OAuthFlow [(p!"authorization_url", (.str p!"https://authserver.example/auth")), (p!"available_scopes", (.dict [(p!"streetlights:on", (.str p!"Ability to switch lights on"))]))]
  let v2 ← make .OAuthFlows [(p!"implicit", v1)]
  let v3 ← make .SecurityScheme [(p!"type_", (.str p!"oauth2")), (p!"description", (.str p!"Flows to support OAuth 2.0")), (p!"flows", v2), (p!"scopes", (.list [(.str p!"streetlights:on")]))]
  check (eq (dump v3) (.dict [(p!"type", (.str p!"oauth2")), (p!"description", (.str p!"Flows to support OAuth 2.0")), (p!"flows", (.dict [(p!"implicit", (.dict [(p!"authorizationUrl", (.url .any ((urlForm p!"https://authserver.example/auth").getD []))), (p!"availableScopes", (.dict [(p!"streetlights:on", (.str p!"Ability to switch lights on"))]))]))])), (p!"scopes", (.list [(.str p!"streetlights:on")]))])) : Option Unit).isSome = true := by decide +kernel

/-- `test_security_scheme_oauth2_with_flows_validation`, tests/models/test_security.py:749 -/
example : (do
  let v1 ← load .SecurityScheme (.dict [(p!"type", (.str p!"oauth2")), (p!"description", (.str p!"Flows to support OAuth 2.0")), (p!"flows", (.dict [(p!"implicit", (.dict [(p!"authorizationUrl", (.str p!"https://authserver.example/auth")), (p!"availableScopes", (.dict [(p!"streetlights:on", (.str p!"Ability to switch lights on"))]))]))])), (p!"scopes", (.list [(.str p!"streetlights:on")]))])
  let v2 ← get v1 p!"type_"
  check (eq v2 (.str p!"oauth2"))
  let v3 ← get v1 p!"flows"
  check (!(V.isNone v3))
  let v4 ← get v1 p!"flows"
  check (isA .OAuthFlows v4)
  let v5 ← get v1 p!"flows"
  let v6 ← get v5 p!"implicit"
  check (!(V.isNone v6))
  let v7 ← get v1 p!"flows"
  let v8 ← get v7 p!"implicit"
  let v9 ← get v8 p!"authorization_url"
  check (isUrl v9) : Option Unit).isSome = true := by decide +kernel

end Verif.Conformance
