import Verif.Conformance.Support

/-! Translated from tests/models/test_server.py by tools/gen_conformance.py. -/

set_option maxRecDepth 100000
set_option linter.unusedVariables false
namespace Verif.Conformance
open Verif Verif.Gen Verif.Pyd

/-- `test_server_variable_validation_case_server_variable_basic`, tests/models/test_server.py:312 -/
example : (do
  let v1 ← load .ServerVariable (.dict [(p!"default", (.str p!"1883"))])
  check (!(V.isNone v1))
  let v2 ← get v1 p!"default"
  check (eq v2 (.str p!"1883")) : Option Unit).isSome = true := by decide +kernel

/-- `test_server_variable_validation_case_server_variable_full`, tests/models/test_server.py:312 -/
example : (do
  let v1 ← load .ServerVariable (.dict [(p!"description", (.str p!"Environment to connect to. It can be either `production` or `staging`.")), (p!"enum", (.list [(.str p!"production"), (.str p!"staging")])), (p!"default", (.str p!"production")), (p!"examples", (.list [(.str p!"production"), (.str p!"staging")]))])
  check (!(V.isNone v1))
  let v2 ← get v1 p!"default"
  check (eq v2 (.str p!"production")) : Option Unit).isSome = true := by decide +kernel

/-- `test_server_variable_serialization_case_server_variable_serialization_empty`, tests/models/test_server.py:329 -/
example : (do
  let v1 ← make .ServerVariable []
  check (eq (dump v1) (.dict [])) : Option Unit).isSome = true := by decide +kernel

/-- `test_server_variable_serialization_case_server_variable_serialization_basic`, tests/models/test_server.py:329 -/
example : (do
  let v1 ← make .ServerVariable [(p!"default", (.str p!"1883"))]
  check (eq (dump v1) (.dict [(p!"default", (.str p!"1883"))])) : Option Unit).isSome = true := by decide +kernel

/-- `test_server_variable_serialization_case_server_variable_serialization_with_enum`, tests/models/test_server.py:329 -/
example : (do
  let v1 ← make .ServerVariable [(p!"description", (.str p!"Environment to connect to.")), (p!"enum", (.list [(.str p!"production"), (.str p!"staging")])), (p!"default", (.str p!"production"))]
  check (eq (dump v1) (.dict [(p!"description", (.str p!"Environment to connect to.")), (p!"enum", (.list [(.str p!"production"), (.str p!"staging")])), (p!"default", (.str p!"production"))])) : Option Unit).isSome = true := by decide +kernel

/-- `test_server_variable_serialization_case_server_variable_serialization_full`, tests/models/test_server.py:329 -/
example : (do
  let v1 ← make .ServerVariable [(p!"description", (.str p!"Environment to connect to. It can be either `production` or `staging`.")), (p!"enum", (.list [(.str p!"production"), (.str p!"staging")])), (p!"default", (.str p!"production")), (p!"examples", (.list [(.str p!"production"), (.str p!"staging")]))]
  check (eq (dump v1) (.dict [(p!"description", (.str p!"Environment to connect to. It can be either `production` or `staging`.")), (p!"enum", (.list [(.str p!"production"), (.str p!"staging")])), (p!"default", (.str p!"production")), (p!"examples", (.list [(.str p!"production"), (.str p!"staging")]))])) : Option Unit).isSome = true := by decide +kernel

/-- `test_server_variable_with_enum_validation`, tests/models/test_server.py:338 -/
example : (do
  let v1 ← load .ServerVariable (.dict [(p!"description", (.str p!"Environment to connect to.")), (p!"enum", (.list [(.str p!"production"), (.str p!"staging")])), (p!"default", (.str p!"production"))])
  let v2 ← get v1 p!"enum"
  check (eq v2 (.list [(.str p!"production"), (.str p!"staging")]))
  let v3 ← get v1 p!"default"
  check (eq v3 (.str p!"production"))
  let v4 ← get v1 p!"description"
  check (eq v4 (.str p!"Environment to connect to.")) : Option Unit).isSome = true := by decide +kernel

/-- `test_server_variable_empty_enum_validation`, tests/models/test_server.py:354 -/
example : (do
  let v1 ← load .ServerVariable (.dict [(p!"enum", (.list [])), (p!"default", (.str p!"production"))])
  let v2 ← get v1 p!"enum"
  check (eq v2 (.list []))
  let v3 ← get v1 p!"default"
  check (eq v3 (.str p!"production")) : Option Unit).isSome = true := by decide +kernel

/-- `test_server_validation_case_server_basic`, tests/models/test_server.py:379 -/
example : (do
  let v1 ← load .Server (.dict [(p!"host", (.str p!"kafka.in.mycompany.com:9092")), (p!"protocol", (.str p!"kafka"))])
  check (!(V.isNone v1))
  let v2 ← get v1 p!"host"
  check (eq v2 (.str p!"kafka.in.mycompany.com:9092"))
  let v3 ← get v1 p!"protocol"
  check (eq v3 (.str p!"kafka")) : Option Unit).isSome = true := by decide +kernel

/-- `test_server_validation_case_server_full`, tests/models/test_server.py:379 -/
example : (do
  let v1 ← load .Server (.dict [(p!"host", (.str p!"kafka.in.mycompany.com:9092")), (p!"description", (.str p!"Production Kafka broker.")), (p!"protocol", (.str p!"kafka")), (p!"protocolVersion", (.str p!"3.2"))])
  check (!(V.isNone v1))
  let v2 ← get v1 p!"host"
  check (eq v2 (.str p!"kafka.in.mycompany.com:9092"))
  let v3 ← get v1 p!"protocol"
  check (eq v3 (.str p!"kafka")) : Option Unit).isSome = true := by decide +kernel

/-- `test_server_validation_case_server_with_pathname`, tests/models/test_server.py:379 -/
example : (do
  let v1 ← load .Server (.dict [(p!"host", (.str p!"rabbitmq.in.mycompany.com:5672")), (p!"pathname", (.str p!"/production")), (p!"protocol", (.str p!"amqp")), (p!"description", (.str p!"Production RabbitMQ broker (uses the `production` vhost)."))])
  check (!(V.isNone v1))
  let v2 ← get v1 p!"host"
  check (eq v2 (.str p!"rabbitmq.in.mycompany.com:5672"))
  let v3 ← get v1 p!"protocol"
  check (eq v3 (.str p!"amqp")) : Option Unit).isSome = true := by decide +kernel

/-- `test_server_validation_case_server_with_variables`, tests/models/test_server.py:379 -/
example : (do
  let v1 ← load .Server (.dict [(p!"host", (.str p!"rabbitmq.in.mycompany.com:5672")), (p!"pathname", (.str p!"/{env}")), (p!"protocol", (.str p!"amqp")), (p!"description", (.str p!"RabbitMQ broker. Use the `env` variable to point to either `production` or `staging`.")), (p!"variables", (.dict [(p!"env", (.dict [(p!"description", (.str p!"Environment to connect to. It can be either `production` or `staging`.")), (p!"enum", (.list [(.str p!"production"), (.str p!"staging")]))]))]))])
  check (!(V.isNone v1))
  let v2 ← get v1 p!"host"
  check (eq v2 (.str p!"rabbitmq.in.mycompany.com:5672"))
  let v3 ← get v1 p!"protocol"
  check (eq v3 (.str p!"amqp")) : Option Unit).isSome = true := by decide +kernel

/-- `test_server_serialization_case_server_serialization_basic`, tests/models/test_server.py:397 -/
example : (do
  let v1 ← make .Server [(p!"host", (.str p!"kafka.in.mycompany.com:9092")), (p!"protocol", (.str p!"kafka"))]
  check (eq (dump v1) (.dict [(p!"host", (.str p!"kafka.in.mycompany.com:9092")), (p!"protocol", (.str p!"kafka"))])) : Option Unit).isSome = true := by decide +kernel

/-- `test_server_serialization_case_server_serialization_with_pathname`, tests/models/test_server.py:397 -/
example : (do
  let v1 ← make .Server [(p!"host", (.str p!"rabbitmq.in.mycompany.com:5672")), (p!"pathname", (.str p!"/production")), (p!"protocol", (.str p!"amqp"))]
  check (eq (dump v1) (.dict [(p!"host", (.str p!"rabbitmq.in.mycompany.com:5672")), (p!"pathname", (.str p!"/production")), (p!"protocol", (.str p!"amqp"))])) : Option Unit).isSome = true := by decide +kernel

/-- `test_server_serialization_case_server_serialization_with_protocol_version`, tests/models/test_server.py:397 -/
example : (do
  let v1 ← make .Server [(p!"host", (.str p!"kafka.in.mycompany.com:9092")), (p!"protocol", (.str p!"kafka")), (p!"protocol_version", (.str p!"3.2"))]
  check (eq (dump v1) (.dict [(p!"host", (.str p!"kafka.in.mycompany.com:9092")), (p!"protocol", (.str p!"kafka")), (p!"protocolVersion", (.str p!"3.2"))])) : Option Unit).isSome = true := by decide +kernel

/-- `test_server_serialization_case_server_serialization_with_variables`, tests/models/test_server.py:397 -/
example : (do
  let v1 ← make .ServerVariable [(p!"description", (.str p!"Environment to connect to.")), (p!"enum", (.list [(.str p!"production"), (.str p!"staging")])), (p!"default", (.str p!"production"))]
  let v2 ← make .Server [(p!"host", (.str p!"rabbitmq.in.mycompany.com:5672")), (p!"pathname", (.str p!"/{env}")), (p!"protocol", (.str p!"amqp")), (p!"variables", (.dict [(p!"env", v1)]))]
  check (eq (dump v2) (.dict [(p!"host", (.str p!"rabbitmq.in.mycompany.com:5672")), (p!"pathname", (.str p!"/{env}")), (p!"protocol", (.str p!"amqp")), (p!"variables", (.dict [(p!"env", (.dict [(p!"description", (.str p!"Environment to connect to.")), (p!"enum", (.list [(.str p!"production"), (.str p!"staging")])), (p!"default", (.str p!"production"))]))]))])) : Option Unit).isSome = true := by decide +kernel

/-- `test_server_serialization_case_server_serialization_with_reference_variable`, tests/models/test_server.py:397 -/
example : (do
  let v1 ← make .Reference [(p!"ref", (.str p!"#/components/serverVariables/env"))]
  let v2 ← make .Server [(p!"host", (.str p!"rabbitmq.in.mycompany.com:5672")), (p!"protocol", (.str p!"amqp")), (p!"variables", (.dict [(p!"env", v1)]))]
  check (eq (dump v2) (.dict [(p!"host", (.str p!"rabbitmq.in.mycompany.com:5672")), (p!"protocol", (.str p!"amqp")), (p!"variables", (.dict [(p!"env", (.dict [(p!"$ref", (.str p!"#/components/serverVariables/env"))]))]))])) : Option Unit).isSome = true := by decide +kernel

/-- `test_server_with_variables_validation`, tests/models/test_server.py:402 -/
example : (do
  let v1 ← load .Server (.dict [(p!"host", (.str p!"rabbitmq.in.mycompany.com:5672")), (p!"pathname", (.str p!"/{env}")), (p!"protocol", (.str p!"amqp")), (p!"variables", (.dict [(p!"env", (.dict [(p!"description", (.str p!"Environment to connect to.")), (p!"enum", (.list [(.str p!"production"), (.str p!"staging")])), (p!"default", (.str p!"production"))]))]))])
  let v2 ← get v1 p!"variables"
  check (!(V.isNone v2))
  let v3 ← get v1 p!"variables"
  check (member p!"env" v3)
  let v4 ← get v1 p!"variables"
  let v5 ← item v4 p!"env"
  check (isA .ServerVariable v5)
  let v6 ← get v1 p!"variables"
  let v7 ← item v6 p!"env"
  let v8 ← get v7 p!"default"
  check (eq v8 (.str p!"production"))
  let v9 ← get v1 p!"variables"
  let v10 ← item v9 p!"env"
  let v11 ← get v10 p!"enum"
  check (eq v11 (.list [(.str p!"production"), (.str p!"staging")])) : Option Unit).isSome = true := by decide +kernel

/-- `test_server_with_reference_variable_validation`, tests/models/test_server.py:425 -/
example : (do
  let v1 ← load .Server (.dict [(p!"host", (.str p!"rabbitmq.in.mycompany.com:5672")), (p!"protocol", (.str p!"amqp")), (p!"variables", (.dict [(p!"env", (.dict [(p!"$ref", (.str p!"#/components/serverVariables/env"))]))]))])
  let v2 ← get v1 p!"variables"
  check (!(V.isNone v2))
  let v3 ← get v1 p!"variables"
  check (member p!"env" v3)
  let v4 ← get v1 p!"variables"
  let v5 ← item v4 p!"env"
  check (isA .Reference v5)
  let v6 ← get v1 p!"variables"
  let v7 ← item v6 p!"env"
  let v8 ← get v7 p!"ref"
  check (eq v8 (.str p!"#/components/serverVariables/env")) : Option Unit).isSome = true := by decide +kernel

/-- `test_server_with_protocol_version_validation`, tests/models/test_server.py:442 -/
example : (do
  let v1 ← load .Server (.dict [(p!"host", (.str p!"kafka.in.mycompany.com:9092")), (p!"protocol", (.str p!"kafka")), (p!"protocolVersion", (.str p!"3.2"))])
  let v2 ← get v1 p!"protocol_version"
  check (eq v2 (.str p!"3.2")) : Option Unit).isSome = true := by decide +kernel

/-- `test_server_with_pathname_validation`, tests/models/test_server.py:454 -/
example : (do
  let v1 ← load .Server (.dict [(p!"host", (.str p!"rabbitmq.in.mycompany.com:5672")), (p!"pathname", (.str p!"/production")), (p!"protocol", (.str p!"amqp"))])
  let v2 ← get v1 p!"pathname"
  check (eq v2 (.str p!"/production")) : Option Unit).isSome = true := by decide +kernel

/-- `test_server_missing_host_validation_error`, tests/models/test_server.py:466 -/
example : (do
  raises (do
    discard (load .Server (.dict [(p!"protocol", (.str p!"kafka"))])) : Option Unit) : Option Unit).isSome = true := by decide +kernel

/-- `test_server_missing_protocol_validation_error`, tests/models/test_server.py:475 -/
example : (do
  raises (do
    discard (load .Server (.dict [(p!"host", (.str p!"kafka.in.mycompany.com:9092"))])) : Option Unit) : Option Unit).isSome = true := by decide +kernel

/-- `test_server_missing_required_fields_validation_error`, tests/models/test_server.py:484 -/
example : (do
  raises (do
    discard (load .Server (.dict [(p!"description", (.str p!"Test server"))])) : Option Unit) : Option Unit).isSome = true := by decide +kernel

/-- `test_servers_validation_case_servers_basic`, tests/models/test_server.py:505 -/
example : (do
  let v1 ← load .Servers (.dict [(p!"production", (.dict [(p!"host", (.str p!"kafka.in.mycompany.com:9092")), (p!"protocol", (.str p!"kafka"))])), (p!"staging", (.dict [(p!"host", (.str p!"kafka-staging.in.mycompany.com:9092")), (p!"protocol", (.str p!"kafka"))]))])
  check (!(V.isNone v1))
  let v2 ← get v1 p!"root"
  check (isDict v2)
  let v3 ← get v1 p!"root"
  check (decide (len v3 > 0)) : Option Unit).isSome = true := by decide +kernel

/-- `test_servers_validation_case_servers_with_underscores_and_hyphens`, tests/models/test_server.py:505 -/
example : (do
  let v1 ← load .Servers (.dict [(p!"production_server_1", (.dict [(p!"host", (.str p!"kafka.in.mycompany.com:9092")), (p!"protocol", (.str p!"kafka"))])), (p!"staging-server-2", (.dict [(p!"host", (.str p!"kafka-staging.in.mycompany.com:9092")), (p!"protocol", (.str p!"kafka"))])), (p!"server_3", (.dict [(p!"host", (.str p!"kafka-dev.in.mycompany.com:9092")), (p!"protocol", (.str p!"kafka"))]))])
  check (!(V.isNone v1))
  let v2 ← get v1 p!"root"
  check (isDict v2)
  let v3 ← get v1 p!"root"
  check (decide (len v3 > 0)) : Option Unit).isSome = true := by decide +kernel

/-- `test_servers_validation_case_servers_with_references`, tests/models/test_server.py:505 -/
example : (do
  let v1 ← load .Servers (.dict [(p!"production", (.dict [(p!"$ref", (.str p!"#/components/servers/production"))])), (p!"staging", (.dict [(p!"host", (.str p!"kafka-staging.in.mycompany.com:9092")), (p!"protocol", (.str p!"kafka"))]))])
  check (!(V.isNone v1))
  let v2 ← get v1 p!"root"
  check (isDict v2)
  let v3 ← get v1 p!"root"
  check (decide (len v3 > 0)) : Option Unit).isSome = true := by decide +kernel

/-- `test_servers_validation_errors_case_servers_invalid_key_spaces`, tests/models/test_server.py:522 -/
example : (do
  raises (do
    discard (load .Servers (.dict [(p!"production server", (.dict [(p!"host", (.str p!"kafka.in.mycompany.com:9092")), (p!"protocol", (.str p!"kafka"))]))])) : Option Unit) : Option Unit).isSome = true := by decide +kernel

/-- `test_servers_validation_errors_case_servers_invalid_key_special_chars`, tests/models/test_server.py:522 -/
example : (do
  raises (do
    discard (load .Servers (.dict [(p!"production@server", (.dict [(p!"host", (.str p!"kafka.in.mycompany.com:9092")), (p!"protocol", (.str p!"kafka"))]))])) : Option Unit) : Option Unit).isSome = true := by decide +kernel

/-- `test_servers_validation_errors_case_servers_invalid_key_dots`, tests/models/test_server.py:522 -/
example : (do
  raises (do
    discard (load .Servers (.dict [(p!"production.server", (.dict [(p!"host", (.str p!"kafka.in.mycompany.com:9092")), (p!"protocol", (.str p!"kafka"))]))])) : Option Unit) : Option Unit).isSome = true := by decide +kernel

/-- `test_servers_validation_errors_case_servers_invalid_key_empty`, tests/models/test_server.py:522 -/
example : (do
  raises (do
    discard (load .Servers (.dict [(([] : Str), (.dict [(p!"host", (.str p!"kafka.in.mycompany.com:9092")), (p!"protocol", (.str p!"kafka"))]))])) : Option Unit) : Option Unit).isSome = true := by decide +kernel

/-- `test_servers_empty_dict_validation`, tests/models/test_server.py:530 -/
example : (do
  let v1 ← load .Servers (.dict [])
  check (!(V.isNone v1))
  let v2 ← get v1 p!"root"
  check (eq v2 (.dict []))
  let v3 ← get v1 p!"root"
  check (len v3 == 0) : Option Unit).isSome = true := by decide +kernel

/-- `test_servers_iteration`, tests/models/test_server.py:537 -/
example : (do
  let v1 ← make .Server [(p!"host", (.str p!"kafka.in.mycompany.com:9092")), (p!"protocol", (.str p!"kafka"))]
  let v2 ← make .Server [(p!"host", (.str p!"kafka-staging.in.mycompany.com:9092")), (p!"protocol", (.str p!"kafka"))]
  let v3 ← make .Servers [(p!"root", (.dict [(p!"production", v1), (p!"staging", v2)]))]
  check (len (listOf v3) == 2)
  check (member p!"production" (listOf v3))
  check (member p!"staging" (listOf v3)) : Option Unit).isSome = true := by decide +kernel

/-- `test_servers_getitem`, tests/models/test_server.py:552 -/
example : (do
  let v1 ← make .Server [(p!"host", (.str p!"kafka.in.mycompany.com:9092")), (p!"protocol", (.str p!"kafka"))]
  let v2 ← make .Server [(p!"host", (.str p!"kafka-staging.in.mycompany.com:9092")), (p!"protocol", (.str p!"kafka"))]
  let v3 ← make .Servers [(p!"root", (.dict [(p!"production", v1), (p!"staging", v2)]))]
  let v4 ← item v3 p!"production"
  check (eq v4 v1)
  let v5 ← item v3 p!"staging"
  check (eq v5 v2)
  let v6 ← make .Reference [(p!"ref", (.str p!"#/components/servers/dev"))]
  let v7 ← make .Servers [(p!"root", (.dict [(p!"dev", v6)]))]
  let v8 ← item v7 p!"dev"
  check (eq v8 v6) : Option Unit).isSome = true := by decide +kernel

/-- `test_servers_getattr`, tests/models/test_server.py:574 -/
example : (do
  let v1 ← make .Server [(p!"host", (.str p!"kafka.in.mycompany.com:9092")), (p!"protocol", (.str p!"kafka"))]
  let v2 ← make .Server [(p!"host", (.str p!"kafka-staging.in.mycompany.com:9092")), (p!"protocol", (.str p!"kafka"))]
  let v3 ← make .Servers [(p!"root", (.dict [(p!"production", v1), (p!"staging", v2)]))]
  let v4 ← item v3 p!"production"
  check (eq v4 v1)
  let v5 ← item v3 p!"staging"
  check (eq v5 v2)
  let v6 ← make .Reference [(p!"ref", (.str p!"#/components/servers/dev"))]
  let v7 ← make .Servers [(p!"root", (.dict [(p!"dev", v6)]))]
  let v8 ← item v7 p!"dev"
  check (eq v8 v6) : Option Unit).isSome = true := by decide +kernel

end Verif.Conformance
