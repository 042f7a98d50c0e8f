import Verif.Conformance.Basic

/-!
# The test tables of the repository: the statements without a body

Generated by `conformance/gen.py`; see `Verif/Conformance/Basic.lean`.
-/

namespace Verif.Conformance
open Verif Parser

/-! ## declaration_test.go -/

-- parsing an empty
example :
    (fails (parseDeclaration) c!"" c!"") =
    (true) := by
  kernel_rfl

-- parsing an excerpt from the official reference
example :
    (reads (parseDeclaration) c!""
       c!"declaration = {\n\
          \x20     number: 4,\n\
          \x20     full_name: \".my.package.event_annotations\",\n\
          \x20     type: \".logs.proto.ValidationAnnotations\",\n\
          \x20     repeated: true }") =
    (some ({ number := c!"4",
             fullName := c!"\".my.package.event_annotations\"",
             type := c!"\".logs.proto.ValidationAnnotations\"",
             reserved := false,
             repeated := true,
             info := ⟨⟨[], 0, 1, 1⟩, ⟨[], 153, 5, 22⟩⟩ },
           true)) := by
  kernel_rfl

-- parsing another excerpt from the official reference
example :
    (reads (parseDeclaration) c!""
       c!"declaration = {\n\
          \x20     number: 500,\n\
          \x20     full_name: \".my.package.event_annotations\",\n\
          \x20     type: \".logs.proto.ValidationAnnotations\",\n\
          \x20     reserved: true }") =
    (some ({ number := c!"500",
             fullName := c!"\".my.package.event_annotations\"",
             type := c!"\".logs.proto.ValidationAnnotations\"",
             reserved := true,
             repeated := false,
             info := ⟨⟨[], 0, 1, 1⟩, ⟨[], 155, 5, 22⟩⟩ },
           true)) := by
  kernel_rfl

/-! ## edition_test.go -/

-- parsing an empty
example :
    (reads (parseEdition) c!"" c!"") =
    (some (none, true)) := by
  kernel_rfl

-- parsing an excerpt from the official reference
example :
    (reads (parseEdition) c!"" c!"edition = \"2023\";") =
    (some ((some { edition := c!"2023",
                   editionQuote := c!"\"2023\"",
                   info := ⟨⟨[], 0, 1, 1⟩, ⟨[], 16, 1, 17⟩⟩ }),
           true)) := by
  kernel_rfl

/-! ## extensions_test.go -/

-- parsing an empty
example :
    (fails (parseExtensions) c!"" c!"") =
    (true) := by
  kernel_rfl

-- parsing an invalid; without to
example :
    (fails (parseExtensions) c!"" c!"extensions 2, 15, 9 11;") =
    (true) := by
  kernel_rfl

-- parsing an invalid; including both ranges and fieldNames
example :
    (fails (parseExtensions) c!"" c!"extensions 2, \"foo\", 9 to 11;") =
    (true) := by
  kernel_rfl

-- parsing an excerpt from the official reference
example :
    (reads (parseExtensions) c!"" c!"extensions 100 to 199;") =
    (some ({ ranges := [{ begin_ := c!"100", end_ := c!"199" }],
             declarations := [],
             info := ⟨⟨[], 0, 1, 1⟩, ⟨[], 21, 1, 22⟩⟩ },
           true)) := by
  kernel_rfl

-- parsing another excerpt from the official reference
example :
    (reads (parseExtensions) c!"" c!"extensions 4, 20 to max;") =
    (some ({ ranges := [{ begin_ := c!"4", end_ := c!"" }, { begin_ := c!"20", end_ := c!"max" }],
             declarations := [],
             info := ⟨⟨[], 0, 1, 1⟩, ⟨[], 23, 1, 24⟩⟩ },
           true)) := by
  kernel_rfl

-- parsing an excerpt with extension declarations from the official reference
example :
    (reads (parseExtensions) c!""
       c!"extensions 4 to 1000 [\n\
          \x20   declaration = {\n\
          \x20     number: 4,\n\
          \x20     full_name: \".my.package.event_annotations\",\n\
          \x20     type: \".logs.proto.ValidationAnnotations\",\n\
          \x20     repeated: true },\n\
          \x20   declaration = {\n\
          \x20     number: 999,\n\
          \x20     full_name: \".foo.package.bar\",\n\
          \x20     type: \"int32\"}];") =
    (some ({ ranges := [{ begin_ := c!"4", end_ := c!"1000" }],
             declarations := [{ number := c!"4",
                                fullName := c!"\".my.package.event_annotations\"",
                                type := c!"\".logs.proto.ValidationAnnotations\"",
                                reserved := false,
                                repeated := true,
                                info := ⟨⟨[], 27, 2, 5⟩, ⟨[], 180, 6, 22⟩⟩ },
                              { number := c!"999",
                                fullName := c!"\".foo.package.bar\"",
                                type := c!"\"int32\"",
                                reserved := false,
                                repeated := false,
                                info := ⟨⟨[], 187, 7, 5⟩, ⟨[], 278, 10, 20⟩⟩ }],
             info := ⟨⟨[], 0, 1, 1⟩, ⟨[], 280, 10, 22⟩⟩ },
           true)) := by
  kernel_rfl

/-! ## field_test.go -/

-- parsing an empty
example :
    (fails (parseField (cfg false false)) c!"" c!"") =
    (true) := by
  kernel_rfl

-- parsing an invalid; without fieldNumber
example :
    (fails (parseField (cfg false false)) c!"" c!"foo.bar nested_message = ;") =
    (true) := by
  kernel_rfl

-- parsing an invalid; string fieldNumber
example :
    (fails (parseField (cfg false false)) c!"" c!"foo.bar nested_message = a;") =
    (true) := by
  kernel_rfl

-- parsing an excerpt from the official reference
example :
    (reads (parseField (cfg false false)) c!"" c!"foo.bar nested_message = 2;") =
    (some ({ isRepeated := false,
             isRequired := false,
             isOptional := false,
             type := c!"foo.bar",
             fieldName := c!"nested_message",
             fieldNumber := c!"2",
             fieldOptions := [],
             info := ⟨⟨[], 0, 1, 1⟩, ⟨[], 26, 1, 27⟩⟩ },
           true)) := by
  kernel_rfl

-- parsing another excerpt from the official reference
example :
    (reads (parseField (cfg false false)) c!"" c!"repeated int32 samples = 4 [packed=true];") =
    (some ({ isRepeated := true,
             isRequired := false,
             isOptional := false,
             type := c!"int32",
             fieldName := c!"samples",
             fieldNumber := c!"4",
             fieldOptions := [{ optionName := c!"packed", constant := c!"true" }],
             info := ⟨⟨[], 0, 1, 1⟩, ⟨[], 40, 1, 41⟩⟩ },
           true)) := by
  kernel_rfl

-- parsing fieldOptions
example :
    (reads (parseField (cfg false false)) c!""
       c!"repeated int32 samples = 4 [packed=true, required=false];") =
    (some ({ isRepeated := true,
             isRequired := false,
             isOptional := false,
             type := c!"int32",
             fieldName := c!"samples",
             fieldNumber := c!"4",
             fieldOptions := [{ optionName := c!"packed", constant := c!"true" },
                              { optionName := c!"required", constant := c!"false" }],
             info := ⟨⟨[], 0, 1, 1⟩, ⟨[], 56, 1, 57⟩⟩ },
           true)) := by
  kernel_rfl

-- parsing an invalid fieldOption constant
example :
    (fails (parseField (cfg false false)) c!""
       c!"int64 display_order = 1 [(validator.field) = {int_gt: 0}];") =
    (true) := by
  kernel_rfl

-- parsing fieldOption constant with { by permissive mode. Required by go-proto-validators
example :
    (reads (parseField (cfg true false)) c!""
       c!"int64 display_order = 1 [(validator.field) = {int_gt: 0}];") =
    (some ({ isRepeated := false,
             isRequired := false,
             isOptional := false,
             type := c!"int64",
             fieldName := c!"display_order",
             fieldNumber := c!"1",
             fieldOptions := [{ optionName := c!"(validator.field)", constant := c!"{int_gt:0}" }],
             info := ⟨⟨[], 0, 1, 1⟩, ⟨[], 57, 1, 58⟩⟩ },
           true)) := by
  kernel_rfl

-- parsing fieldOption constant with { and a trailing comma by permissive mode
example :
    (reads (parseField (cfg true false)) c!""
       c!"int64 display_order = 1 [(validator.field) = {int_gt: 0,}];") =
    (some ({ isRepeated := false,
             isRequired := false,
             isOptional := false,
             type := c!"int64",
             fieldName := c!"display_order",
             fieldNumber := c!"1",
             fieldOptions := [{ optionName := c!"(validator.field)", constant := c!"{int_gt:0,}" }],
             info := ⟨⟨[], 0, 1, 1⟩, ⟨[], 58, 1, 59⟩⟩ },
           true)) := by
  kernel_rfl

-- parsing fieldOption constant with { and , by permissive mode. Required by go-proto-validators
example :
    (reads (parseField (cfg true false)) c!""
       c!"string email = 2 [(validator.field) = {length_gt: 0, length_lt: 1025},(validator.field\
          ) = {regex: \"[a-fA-F0-9]{8}-[a-fA-F0-9]{4}-[a-fA-F0-9]{4}-[a-fA-F0-9]{4}-[a-fA-F0-9]{\
          12}\"}];") =
    (some ({ isRepeated := false,
             isRequired := false,
             isOptional := false,
             type := c!"string",
             fieldName := c!"email",
             fieldNumber := c!"2",
             fieldOptions := [{ optionName := c!"(validator.field)",
                                constant := c!"{length_gt:0,length_lt:1025}" },
                              { optionName := c!"(validator.field)",
                                constant :=
                                  c!"{regex:\"[a-fA-F0-9]{8}-[a-fA-F0-9]{4}-[a-fA-F0-9]{4}-[a-fA\
                                     -F0-9]{4}-[a-fA-F0-9]{12}\"}" }],
             info := ⟨⟨[], 0, 1, 1⟩, ⟨[], 177, 1, 178⟩⟩ },
           true)) := by
  kernel_rfl

-- parsing an excerpt from the official reference(proto2)
example :
    (reads (parseField (cfg false false)) c!"" c!"optional foo.bar nested_message = 2;") =
    (some ({ isRepeated := false,
             isRequired := false,
             isOptional := true,
             type := c!"foo.bar",
             fieldName := c!"nested_message",
             fieldNumber := c!"2",
             fieldOptions := [],
             info := ⟨⟨[], 0, 1, 1⟩, ⟨[], 35, 1, 36⟩⟩ },
           true)) := by
  kernel_rfl

-- parsing a required label(proto2)
example :
    (reads (parseField (cfg false false)) c!"" c!"required int32 samples = 4 [packed=true];") =
    (some ({ isRepeated := false,
             isRequired := true,
             isOptional := false,
             type := c!"int32",
             fieldName := c!"samples",
             fieldNumber := c!"4",
             fieldOptions := [{ optionName := c!"packed", constant := c!"true" }],
             info := ⟨⟨[], 0, 1, 1⟩, ⟨[], 40, 1, 41⟩⟩ },
           true)) := by
  kernel_rfl

-- parsing fieldOption constant meaning a swagger annotation. Fix #52
example :
    (reads (parseField (cfg true false)) c!""
       c!"string email_id = 1[(grpc.gateway.protoc_gen_swagger.options.openapiv2_field) = {\n\
          \tpattern: \"^-!#$%&'*+\\/0-9=?A-Z^_a-z{|}~@a-zA-Z0-9\\.a-zA-Z+$\"\n\
          \tmax_length: 254\n\
          \tmin_length: 1\n\
          \tdescription: \"Enter user email\"\n\
          }];\n") =
    (some ({ isRepeated := false,
             isRequired := false,
             isOptional := false,
             type := c!"string",
             fieldName := c!"email_id",
             fieldNumber := c!"1",
             fieldOptions := [{ optionName :=
                                  c!"(grpc.gateway.protoc_gen_swagger.options.openapiv2_field)",
                                constant :=
                                  c!"{pattern:\"^-!#$%&'*+\\/0-9=?A-Z^_a-z{|}~@a-zA-Z0-9\\.a-zA-\
                                     Z+$\"\n\
                                     max_length:254\n\
                                     min_length:1\n\
                                     description:\"Enter user email\"}" }],
             info := ⟨⟨[], 0, 1, 1⟩, ⟨[], 211, 6, 3⟩⟩ },
           true)) := by
  kernel_rfl

-- parsing fieldOption constant contained in a_bit_of_everything.proto provided by grpc-gateway. Fix #52
example :
    (reads (parseField (cfg true false)) c!""
       c!"float float_value = 3 [(grpc.gateway.protoc_gen_swagger.options.openapiv2_field) = {de\
          scription: \"Float value field\", default: \"0.2\", required: ['float_value']}];") =
    (some ({ isRepeated := false,
             isRequired := false,
             isOptional := false,
             type := c!"float",
             fieldName := c!"float_value",
             fieldNumber := c!"3",
             fieldOptions := [{ optionName :=
                                  c!"(grpc.gateway.protoc_gen_swagger.options.openapiv2_field)",
                                constant :=
                                  c!"{description:\"Float value field\",default:\"0.2\",required\
                                     :['float_value']}" }],
             info := ⟨⟨[], 0, 1, 1⟩, ⟨[], 161, 1, 162⟩⟩ },
           true)) := by
  kernel_rfl

/-! ## import_test.go -/

-- parsing an empty
example :
    (fails (parseImport) c!"" c!"") =
    (true) := by
  kernel_rfl

-- parsing the invalid statement without import
example :
    (fails (parseImport) c!"" c!"\"other.proto\";") =
    (true) := by
  kernel_rfl

-- parsing the invalid statement without strLit
example :
    (fails (parseImport) c!"" c!"import 'other.proto\";") =
    (true) := by
  kernel_rfl

-- parsing the statement without a modifier
example :
    (reads (parseImport) c!"" c!"import \"google/protobuf/timestamp.proto\";") =
    (some ({ modifier := .none,
             location := c!"\"google/protobuf/timestamp.proto\"",
             info := ⟨⟨[], 0, 1, 1⟩, ⟨[], 40, 1, 41⟩⟩ },
           true)) := by
  kernel_rfl

-- parsing an excerpt from the official reference
example :
    (reads (parseImport) c!"" c!"import public \"other.proto\";") =
    (some ({ modifier := .public,
             location := c!"\"other.proto\"",
             info := ⟨⟨[], 0, 1, 1⟩, ⟨[], 27, 1, 28⟩⟩ },
           true)) := by
  kernel_rfl

-- parsing the statement with weak
example :
    (reads (parseImport) c!"" c!"import weak \"other.proto\";") =
    (some ({ modifier := .weak,
             location := c!"\"other.proto\"",
             info := ⟨⟨[], 0, 1, 1⟩, ⟨[], 25, 1, 26⟩⟩ },
           true)) := by
  kernel_rfl

/-! ## mapField_test.go -/

-- parsing an empty
example :
    (fails (parseMapField (cfg false false)) c!"" c!"") =
    (true) := by
  kernel_rfl

-- parsing an invalid; without map
example :
    (fails (parseMapField (cfg false false)) c!"" c!"<string, Project> projects = 3;") =
    (true) := by
  kernel_rfl

-- parsing an invalid; not keyType constant
example :
    (fails (parseMapField (cfg false false)) c!"" c!"map<customType, Project> projects = 3;") =
    (true) := by
  kernel_rfl

-- parsing an excerpt from the official reference
example :
    (reads (parseMapField (cfg false false)) c!"" c!"map<string, Project> projects = 3;") =
    (some ({ keyType := c!"string",
             type := c!"Project",
             mapName := c!"projects",
             fieldNumber := c!"3",
             fieldOptions := [],
             info := ⟨⟨[], 0, 1, 1⟩, ⟨[], 33, 1, 34⟩⟩ },
           true)) := by
  kernel_rfl

/-! ## option_test.go -/

-- parsing an empty
example :
    (fails (parseOption (cfg false false)) c!"" c!"") =
    (true) := by
  kernel_rfl

-- parsing an invalid; without option
example :
    (fails (parseOption (cfg false false)) c!"" c!"java_package = \"com.example.foo\";") =
    (true) := by
  kernel_rfl

-- parsing an invalid; without =
example :
    (fails (parseOption (cfg false false)) c!"" c!"option java_package \"com.example.foo\";") =
    (true) := by
  kernel_rfl

-- parsing an invalid; without ;
example :
    (fails (parseOption (cfg false false)) c!"" c!"option java_package = \"com.example.foo\"") =
    (true) := by
  kernel_rfl

-- parsing an excerpt from the official reference
example :
    (reads (parseOption (cfg false false)) c!"" c!"option java_package = \"com.example.foo\";") =
    (some ({ optionName := c!"java_package",
             constant := c!"\"com.example.foo\"",
             info := ⟨⟨[], 0, 1, 1⟩, ⟨[], 39, 1, 40⟩⟩ },
           true)) := by
  kernel_rfl

-- parsing another excerpt from the official reference
example :
    (reads (parseOption (cfg false false)) c!"" c!"option (my_option).a = true;") =
    (some ({ optionName := c!"(my_option).a",
             constant := c!"true",
             info := ⟨⟨[], 0, 1, 1⟩, ⟨[], 27, 1, 28⟩⟩ },
           true)) := by
  kernel_rfl

-- parsing fullIdent
example :
    (reads (parseOption (cfg false false)) c!""
       c!"option java_package.baz.bar = \"com.example.foo\";") =
    (some ({ optionName := c!"java_package.baz.bar",
             constant := c!"\"com.example.foo\"",
             info := ⟨⟨[], 0, 1, 1⟩, ⟨[], 47, 1, 48⟩⟩ },
           true)) := by
  kernel_rfl

-- parsing "{" ident ":" constant { ident ":" constant } "}" by permissive mode.
example :
    (reads (parseOption (cfg true false)) c!""
       c!"\n\
          option (google.api.http) = {\n\
          \x20   get: \"/v1/projects/{project_id}/aggregated/addresses\"\n\
          \x20   rest_collection: \"projects.addresses\"\n\
          };") =
    (some ({ optionName := c!"(google.api.http)",
             constant :=
               c!"{get:\"/v1/projects/{project_id}/aggregated/addresses\"\n\
                  rest_collection:\"projects.addresses\"}",
             info := ⟨⟨[], 1, 2, 1⟩, ⟨[], 131, 5, 2⟩⟩ },
           true)) := by
  kernel_rfl

-- parsing "{" ident ":" constant { "," ident ":" constant } "}" by permissive mode.
example :
    (reads (parseOption (cfg true false)) c!""
       c!"\n\
          option (google.api.http) = {\n\
          \x20   post: \"/v1/resources\",\n\
          \x20   body: \"resource\",\n\
          \x20   rest_method_name: \"insert\"\n\
          };") =
    (some ({ optionName := c!"(google.api.http)",
             constant :=
               c!"{post:\"/v1/resources\",body:\"resource\",rest_method_name:\"insert\"}",
             info := ⟨⟨[], 1, 2, 1⟩, ⟨[], 111, 6, 2⟩⟩ },
           true)) := by
  kernel_rfl

-- parses multiline string literal in multi-option annotation
example :
    (reads (parseOption (cfg true false)) c!""
       c!"\n\
          option (google.api.http) = {\n\
          \x20   post: \"/v1/resources\",\n\
          \x20   body: \"res\"\n\
          \t\t      \"ource\",\n\
          \x20   rest_method_name: \"insert\"\n\
          };") =
    (some ({ optionName := c!"(google.api.http)",
             constant :=
               c!"{post:\"/v1/resources\",body:\"resource\",rest_method_name:\"insert\"}",
             info := ⟨⟨[], 1, 2, 1⟩, ⟨[], 122, 7, 2⟩⟩ },
           true)) := by
  kernel_rfl

-- parses nested cloudsetup options
example :
    (reads (parseOption (cfg true false)) c!""
       c!"\n\
          option (google.api.http) = {\n\
          \x20   post: \"/v1/resources\",\n\
          \x20   additional_bindings: {\n\
          \t\tpost: \"/v2/resources\"\n\
          \t};\n\
          };") =
    (some ({ optionName := c!"(google.api.http)",
             constant :=
               c!"{post:\"/v1/resources\",additional_bindings:{post:\"/v2/resources\"};}",
             info := ⟨⟨[], 1, 2, 1⟩, ⟨[], 113, 7, 2⟩⟩ },
           true)) := by
  kernel_rfl

-- parses trailing commas in options
example :
    (reads (parseOption (cfg true false)) c!""
       c!"\noption (google.api.http) = {\n    post: \"/v1/resources\",\n    body: \"data\",\n};")
      =
    (some ({ optionName := c!"(google.api.http)",
             constant := c!"{post:\"/v1/resources\",body:\"data\",}",
             info := ⟨⟨[], 1, 2, 1⟩, ⟨[], 76, 5, 2⟩⟩ },
           true)) := by
  kernel_rfl

-- parses empty fields within an option
example :
    (reads (parseOption (cfg true false)) c!""
       c!"\noption (opt) = {\n    empty : {},\n    inner_empty : {\n    \tempty : {},\n\t},\n};")
      =
    (some ({ optionName := c!"(opt)",
             constant := c!"{empty:{},inner_empty:{empty:{},},}",
             info := ⟨⟨[], 1, 2, 1⟩, ⟨[], 76, 7, 2⟩⟩ },
           true)) := by
  kernel_rfl

-- parsing the option constant contained in a_bit_of_everything.proto provided by grpc-gateway. Fix #52
example :
    (reads (parseOption (cfg true false)) c!""
       c!"\n\
          option (google.api.http) = {\n\
          \tput: \"/v2/example/a_bit_of_everything/{abe.uuid}\"\n\
          \tadditional_bindings: [\n\
          \t\t{\n\
          \t\t\tpatch: \"/v2/example/a_bit_of_everything/{abe.uuid}\"\n\
          \t\t\tbody: \"abe\"\n\
          \t\t},\n\
          \t\t{\n\
          \t\t\tpatch: \"/v2a/example/a_bit_of_everything/{abe.uuid}\"\n\
          \t\t\tbody: \"*\"\n\
          \t\t}\n\
          \t]\n\
          };") =
    (some ({ optionName := c!"(google.api.http)",
             constant :=
               c!"{put:\"/v2/example/a_bit_of_everything/{abe.uuid}\"\n\
                  additional_bindings:[{patch:\"/v2/example/a_bit_of_everything/{abe.uuid}\"\n\
                  body:\"abe\"},{patch:\"/v2a/example/a_bit_of_everything/{abe.uuid}\"\n\
                  body:\"*\"}]}",
             info := ⟨⟨[], 1, 2, 1⟩, ⟨[], 265, 14, 2⟩⟩ },
           true)) := by
  kernel_rfl

-- parsing "(." fullIdent ")". Fix #63
example :
    (reads (parseOption (cfg true false)) c!"" c!"option (.foo.bar.name) = \"name\";") =
    (some ({ optionName := c!"(.foo.bar.name)",
             constant := c!"\"name\"",
             info := ⟨⟨[], 0, 1, 1⟩, ⟨[], 31, 1, 32⟩⟩ },
           true)) := by
  kernel_rfl

-- parsing bracedFullIdent as part of optionName
example :
    (reads (parseOption (cfg true false)) c!"" c!"option foo.(bar.baz).name = \"value\";") =
    (some ({ optionName := c!"foo.(bar.baz).name",
             constant := c!"\"value\"",
             info := ⟨⟨[], 0, 1, 1⟩, ⟨[], 35, 1, 36⟩⟩ },
           true)) := by
  kernel_rfl

/-! ## package_test.go -/

-- parsing an empty
example :
    (fails (parsePackage) c!"" c!"") =
    (true) := by
  kernel_rfl

-- parsing an excerpt from the official reference
example :
    (reads (parsePackage) c!"" c!"package foo.bar;") =
    (some ({ name := c!"foo.bar", info := ⟨⟨[], 0, 1, 1⟩, ⟨[], 15, 1, 16⟩⟩ }, true)) := by
  kernel_rfl

/-! ## reserved_test.go -/

-- parsing an empty
example :
    (fails (parseReserved) c!"" c!"") =
    (true) := by
  kernel_rfl

-- parsing an invalid; without to
example :
    (fails (parseReserved) c!"" c!"reserved 2, 15, 9 11;") =
    (true) := by
  kernel_rfl

-- parsing an invalid; including both ranges and fieldNames
example :
    (fails (parseReserved) c!"" c!"reserved 2, \"foo\", 9 to 11;") =
    (true) := by
  kernel_rfl

-- parsing an excerpt from the official reference
example :
    (reads (parseReserved) c!"" c!"reserved 2, 15, 9 to 11;") =
    (some ({ ranges := [{ begin_ := c!"2", end_ := c!"" },
                        { begin_ := c!"15", end_ := c!"" },
                        { begin_ := c!"9", end_ := c!"11" }],
             fieldNames := [],
             info := ⟨⟨[], 0, 1, 1⟩, ⟨[], 23, 1, 24⟩⟩ },
           true)) := by
  kernel_rfl

-- parsing another excerpt from the official reference
example :
    (reads (parseReserved) c!"" c!"reserved \"foo\", \"bar\";") =
    (some ({ ranges := [],
             fieldNames := [c!"\"foo\"", c!"\"bar\""],
             info := ⟨⟨[], 0, 1, 1⟩, ⟨[], 21, 1, 22⟩⟩ },
           true)) := by
  kernel_rfl

-- parsing an input with max
example :
    (reads (parseReserved) c!"" c!"reserved 9 to max;") =
    (some ({ ranges := [{ begin_ := c!"9", end_ := c!"max" }],
             fieldNames := [],
             info := ⟨⟨[], 0, 1, 1⟩, ⟨[], 17, 1, 18⟩⟩ },
           true)) := by
  kernel_rfl

-- parsing reservedIdent from editions
example :
    (reads (parseReserved) c!"" c!"reserved foo, bar;") =
    (some ({ ranges := [],
             fieldNames := [c!"foo", c!"bar"],
             info := ⟨⟨[], 0, 1, 1⟩, ⟨[], 17, 1, 18⟩⟩ },
           true)) := by
  kernel_rfl

-- parsing field names on separate lines without commas. See #96
example :
    (reads (parseReserved) c!"" c!"reserved\n\t\"skipped\"\n\t\"ignore_empty\"\n;") =
    (some ({ ranges := [],
             fieldNames := [c!"\"skipped\"", c!"\"ignore_empty\""],
             info := ⟨⟨[], 0, 1, 1⟩, ⟨[], 36, 4, 1⟩⟩ },
           true)) := by
  kernel_rfl

-- parsing a mix of comma-separated and whitespace-separated field names
example :
    (reads (parseReserved) c!"" c!"reserved \"field1\", \n\t\"field2\"\n\t\"field3\", \"field4\";")
      =
    (some ({ ranges := [],
             fieldNames := [c!"\"field1\"", c!"\"field2\"", c!"\"field3\"", c!"\"field4\""],
             info := ⟨⟨[], 0, 1, 1⟩, ⟨[], 49, 3, 20⟩⟩ },
           true)) := by
  kernel_rfl

/-! ## syntax_test.go -/

-- parsing an empty
example :
    (reads (parseSyntax) c!"" c!"") =
    (some (none, true)) := by
  kernel_rfl

-- parsing an excerpt from the official reference
example :
    (reads (parseSyntax) c!"" c!"syntax = \"proto3\";") =
    (some ((some { protobufVersion := c!"proto3",
                   protobufVersionQuote := c!"\"proto3\"",
                   info := ⟨⟨[], 0, 1, 1⟩, ⟨[], 17, 1, 18⟩⟩ }),
           true)) := by
  kernel_rfl

-- parsing a single-quote string
example :
    (reads (parseSyntax) c!"" c!"syntax = 'proto3';") =
    (some ((some { protobufVersion := c!"proto3",
                   protobufVersionQuote := c!"'proto3'",
                   info := ⟨⟨[], 0, 1, 1⟩, ⟨[], 17, 1, 18⟩⟩ }),
           true)) := by
  kernel_rfl

-- parsing an excerpt from the official reference(proto2)
example :
    (reads (parseSyntax) c!"" c!"syntax = \"proto2\";") =
    (some ((some { protobufVersion := c!"proto2",
                   protobufVersionQuote := c!"\"proto2\"",
                   info := ⟨⟨[], 0, 1, 1⟩, ⟨[], 17, 1, 18⟩⟩ }),
           true)) := by
  kernel_rfl

/-! ## comment_test.go -/

-- parsing a C-style comment
example :
    (Comment.isCStyle ⟨c!"/*\ncomment\n*/\n", ⟨⟨[], 0, 0, 0⟩, ⟨[], 0, 0, 0⟩⟩⟩) =
    (true) := by
  kernel_rfl

-- parsing a C++-style comment
example :
    (Comment.isCStyle ⟨c!"// comment", ⟨⟨[], 0, 0, 0⟩, ⟨[], 0, 0, 0⟩⟩⟩) =
    (false) := by
  kernel_rfl

-- parsing a C-style comment
example :
    (Comment.lines ⟨c!"/*comment*/", ⟨⟨[], 0, 0, 0⟩, ⟨[], 0, 0, 0⟩⟩⟩) =
    ([c!"comment"]) := by
  kernel_rfl

-- parsing C-style comments
example :
    (Comment.lines ⟨c!"/* comment1\ncomment2\n*/", ⟨⟨[], 0, 0, 0⟩, ⟨[], 0, 0, 0⟩⟩⟩) =
    ([c!" comment1", c!"comment2", c!""]) := by
  kernel_rfl

-- parsing a C++-style comment
example :
    (Comment.lines ⟨c!"// comment", ⟨⟨[], 0, 0, 0⟩, ⟨[], 0, 0, 0⟩⟩⟩) =
    ([c!" comment"]) := by
  kernel_rfl

-- parsing an empty
example :
    (reads parseComments [] c!"") =
    (some ([], true)) := by
  kernel_rfl

-- parsing a C++-style comment
example :
    (reads parseComments [] c!"// comment\n") =
    (some ([⟨c!"// comment", ⟨⟨[], 0, 1, 1⟩, ⟨[], 9, 1, 10⟩⟩⟩], true)) := by
  kernel_rfl

-- parsing C++-style comments
example :
    (reads parseComments [] c!"// comment\n// comment2\n") =
    (some ([⟨c!"// comment", ⟨⟨[], 0, 1, 1⟩, ⟨[], 9, 1, 10⟩⟩⟩,
            ⟨c!"// comment2", ⟨⟨[], 11, 2, 1⟩, ⟨[], 21, 2, 11⟩⟩⟩],
           true)) := by
  kernel_rfl

-- parsing a C-style comment
example :
    (reads parseComments [] c!"/*\ncomment\n*/") =
    (some ([⟨c!"/*\ncomment\n*/", ⟨⟨[], 0, 1, 1⟩, ⟨[], 12, 3, 2⟩⟩⟩], true)) := by
  kernel_rfl

-- parsing C-style comments
example :
    (reads parseComments [] c!"/*\ncomment\n*/\n/*\ncomment2\n*/") =
    (some ([⟨c!"/*\ncomment\n*/", ⟨⟨[], 0, 1, 1⟩, ⟨[], 12, 3, 2⟩⟩⟩,
            ⟨c!"/*\ncomment2\n*/", ⟨⟨[], 14, 4, 1⟩, ⟨[], 27, 6, 2⟩⟩⟩],
           true)) := by
  kernel_rfl

-- parsing a C-style comment and a C++-style comment
example :
    (reads parseComments [] c!"/*\ncomment\n*/\n\n// comment2\n") =
    (some ([⟨c!"/*\ncomment\n*/", ⟨⟨[], 0, 1, 1⟩, ⟨[], 12, 3, 2⟩⟩⟩,
            ⟨c!"// comment2", ⟨⟨[], 15, 5, 1⟩, ⟨[], 25, 5, 11⟩⟩⟩],
           true)) := by
  kernel_rfl

/-! ## inlineComment_test.go -/

-- parsing an empty
example :
    (reads inlineAfterField [] c!"") =
    (some (none, true)) := by
  kernel_rfl

-- parsing a C++-style comment on the current line
example :
    (reads inlineAfterField [] c!"int32 page_number = 2;  // Which page number do we want?\n") =
    (some ((some ⟨c!"// Which page number do we want?", ⟨⟨[], 24, 1, 25⟩, ⟨[], 55, 1, 56⟩⟩⟩),
           true)) := by
  kernel_rfl

-- parsing a C-style comment on the current line
example :
    (reads inlineAfterField [] c!"int32 page_number = 2;  /* Which page number do we want?\n*/\n")
      =
    (some ((some ⟨c!"/* Which page number do we want?\n*/", ⟨⟨[], 24, 1, 25⟩, ⟨[], 58, 2, 2⟩⟩⟩),
           true)) := by
  kernel_rfl

-- parsing a C++-style comment on the next line
example :
    (reads inlineAfterField [] c!"int32 page_number = 2;\n// Which page number do we want?\n") =
    (some (none, true)) := by
  kernel_rfl

-- parsing a C-style comment on the next line
example :
    (reads inlineAfterField [] c!"int32 page_number = 2;\n/* Which page number do we want?\n*/\n")
      =
    (some (none, true)) := by
  kernel_rfl

-- parsing C++-style comments on the current and next line
example :
    (reads inlineAfterField []
       c!"int32 page_number = 2;  // Which page number do we want?\n\
          // Number of results to return per page.\n") =
    (some ((some ⟨c!"// Which page number do we want?", ⟨⟨[], 24, 1, 25⟩, ⟨[], 55, 1, 56⟩⟩⟩),
           true)) := by
  kernel_rfl

-- parsing C-style comments on the current and next line
example :
    (reads inlineAfterField []
       c!"int32 page_number = 2;  /* Which page number do we want?\n\
          */\n\
          /* Number of results to return per page.\n\
          */\n") =
    (some ((some ⟨c!"/* Which page number do we want?\n*/", ⟨⟨[], 24, 1, 25⟩, ⟨[], 58, 2, 2⟩⟩⟩),
           true)) := by
  kernel_rfl

end Verif.Conformance
