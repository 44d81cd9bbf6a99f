import Verif.Py

/-!
# Tests of the operations

Generated by `tools/gen_tests.py` from the docstrings and positions of the methods `test_...` in `interfaces/*.py`.
-/

namespace Verif.Spec.Suites

/-- a docstring of one line -/
def docstring (s : Str) : Str := py!"\n        " ++ (s ++ py!"\n        ")

/-- operations, with the names and titles of their tests in the order of execution -/
def titles : List (Str × List (Str × Str)) :=
  [
   -- aas.py
   (py!"GetAssetAdministrationShell",
    [(py!"test_no_params", docstring py!"Fetch Shell")]),
   -- aas.py
   (py!"GetAssetAdministrationShell-Reference",
    [(py!"test_no_params", docstring py!"Fetch Shell Reference")]),
   -- aas.py
   (py!"GetAllSubmodelReferences",
    [(py!"test_simple", docstring py!"Fetch all references"),
     (py!"test_get_one", docstring py!"Pagination: Fetch exactly one"),
     (py!"test_pagination", docstring py!"Pagination: Fetch using cursor")]),
   -- aas.py
   (py!"GetAssetInformation",
    [(py!"test_fetch", docstring py!"Fetch Asset Information")]),
   -- aas.py
   (py!"GetThumbnail",
    [(py!"test_fetch", docstring py!"Fetch thumbnail")]),
   -- aas_repo.py
   (py!"GetAllAssetAdministrationShells",
    [(py!"test_no_parameters", docstring py!"Invoke without parameters"),
     (py!"test_filter_by_non_existing_idshort", docstring py!"Filter by non-existing idShort"),
     (py!"test_filter_by_asset_id", docstring py!"Filter by assetId"),
     (py!"test_filter_by_idshort", docstring py!"Filter by idShort"),
     (py!"test_get_one", docstring py!"Pagination: Fetch exactly one"),
     (py!"test_pagination", docstring py!"Pagination: Fetch using cursor")]),
   -- aas_repo.py
   (py!"GetAllAssetAdministrationShells-Reference",
    [(py!"test_no_parameters", docstring py!"Invoke without parameters"),
     (py!"test_filter_by_non_existing_idshort", docstring py!"Filter by non-existing idShort"),
     (py!"test_filter_by_asset_id", docstring py!"Filter by assetId"),
     (py!"test_get_one", docstring py!"Pagination: Fetch exactly one"),
     (py!"test_pagination", docstring py!"Pagination: Fetch using cursor"),
     (py!"test_filter_by_idshort", docstring py!"Filter by idShort")]),
   -- aas_repo.py
   (py!"GetAssetAdministrationShellById",
    [(py!"test_get", docstring py!"Fetch AAS")]),
   -- aas_repo.py
   (py!"GetAssetAdministrationShellById-Reference",
    [(py!"test_get", docstring py!"Fetch AAS Reference")]),
   -- description.py
   (py!"GetDescription",
    [(py!"test_contains_suite", docstring py!"Returned profiles must contain suite")]),
   -- serialization.py
   (py!"GenerateSerializationByIds",
    [(py!"test_simple", docstring py!"Invoke without parameters"),
     (py!"test_filter_by_aasids", docstring py!"Filter by aas ids"),
     (py!"test_filter_by_submodel_ids", docstring py!"Filter by submodel ids"),
     (py!"test_include_concept_descriptions", docstring py!"Invoke with includeConceptDescriptions")]),
   -- shared.py
   (py!"?",
    []),
   -- submodel.py
   (py!"GetSubmodel",
    [(py!"test_no_params", docstring py!"Fetch submodel")]),
   -- submodel.py
   (py!"GetSubmodel-Metadata",
    [(py!"test_no_params", docstring py!"Fetch submodel")]),
   -- submodel.py
   (py!"GetSubmodel-ValueOnly",
    [(py!"test_no_params", docstring py!"Fetch submodel")]),
   -- submodel.py
   (py!"GetSubmodel-Reference",
    [(py!"test_no_params", docstring py!"Fetch submodel reference")]),
   -- submodel.py
   (py!"GetSubmodel-Path",
    [(py!"test_no_params", docstring py!"Fetch submodel path")]),
   -- submodel.py
   (py!"GetAllSubmodelElements",
    [(py!"test_get_one", docstring py!"Pagination: Fetch exactly one"),
     (py!"test_pagination", docstring py!"Pagination: Fetch using cursor"),
     (py!"test_simple", docstring py!"Fetch all submodel elements"),
     (py!"test_level_core", docstring py!"Fetch all submodel elements with level=core"),
     (py!"test_level_deep", docstring py!"Fetch all submodel elements with level=deep"),
     (py!"test_extent_with_blob_value", docstring py!"Fetch all submodel elements with extent=withBlobValue"),
     (py!"test_extent_without_blob_value", docstring py!"Fetch all submodel elements with extent=withoutBlobValue"),
     (py!"test_core_without_blob_value", docstring py!"Fetch all submodel elements with level=core and extend=withoutBlobValue"),
     (py!"test_deep_without_blob_value", docstring py!"Fetch all submodel elements with level=deep and extend=withoutBlobValue"),
     (py!"test_core_with_blob_value", docstring py!"Fetch all submodel elements with level=core and extend=withBlobValue"),
     (py!"test_deep_with_blob_value", docstring py!"Fetch all submodel elements with level=deep and extend=withBlobValue")]),
   -- submodel.py
   (py!"GetAllSubmodelElements-Metadata",
    [(py!"test_get_one", docstring py!"Pagination: Fetch exactly one"),
     (py!"test_pagination", docstring py!"Pagination: Fetch using cursor"),
     (py!"test_simple", docstring py!"Fetch all submodel elements (metadata)")]),
   -- submodel.py
   (py!"GetAllSubmodelElements-ValueOnly",
    [(py!"test_get_one", docstring py!"Pagination: Fetch exactly one"),
     (py!"test_pagination", docstring py!"Pagination: Fetch using cursor"),
     (py!"test_simple", docstring py!"Fetch all submodel elements"),
     (py!"test_level_core", docstring py!"Fetch all submodel elements with level=core"),
     (py!"test_level_deep", docstring py!"Fetch all submodel elements with level=deep")]),
   -- submodel.py
   (py!"GetAllSubmodelElements-Reference",
    [(py!"test_get_one", docstring py!"Pagination: Fetch exactly one"),
     (py!"test_pagination", docstring py!"Pagination: Fetch using cursor"),
     (py!"test_simple", docstring py!"Fetch all submodel elements (references)")]),
   -- submodel.py
   (py!"GetAllSubmodelElements-Path",
    [(py!"test_get_one", docstring py!"Pagination: Fetch exactly one"),
     (py!"test_pagination", docstring py!"Pagination: Fetch using cursor"),
     (py!"test_simple", docstring py!"Fetch all submodel elements"),
     (py!"test_level_core", docstring py!"Fetch all submodel elements with level=core"),
     (py!"test_level_deep", docstring py!"Fetch all submodel elements with level=deep")]),
   -- submodel.py
   (py!"GetSubmodelElementByPath",
    [(py!"test_no_params", py!"test_no_params"),
     (py!"test_level_deep", py!"test_level_deep"),
     (py!"test_level_core", py!"test_level_core"),
     (py!"test_extend_with_blob_value", py!"test_extend_with_blob_value"),
     (py!"test_extend_without_blob_value", py!"test_extend_without_blob_value"),
     (py!"test_core_without_blob_value", py!"test_core_without_blob_value"),
     (py!"test_deep_without_blob_value", py!"test_deep_without_blob_value"),
     (py!"test_core_with_blob_value", py!"test_core_with_blob_value"),
     (py!"test_deep_with_blob_value", py!"test_deep_with_blob_value")]),
   -- submodel.py
   (py!"GetSubmodelElementByPath-Metadata",
    [(py!"test_no_params", py!"test_no_params")]),
   -- submodel.py
   (py!"GetSubmodelElementByPath-ValueOnly",
    [(py!"test_no_params", py!"test_no_params"),
     (py!"test_level_deep", py!"test_level_deep"),
     (py!"test_level_core", py!"test_level_core"),
     (py!"test_extend_with_blob_value", py!"test_extend_with_blob_value"),
     (py!"test_extend_without_blob_value", py!"test_extend_without_blob_value"),
     (py!"test_core_without_blob_value", py!"test_core_without_blob_value"),
     (py!"test_deep_without_blob_value", py!"test_deep_without_blob_value"),
     (py!"test_core_with_blob_value", py!"test_core_with_blob_value"),
     (py!"test_deep_with_blob_value", py!"test_deep_with_blob_value")]),
   -- submodel.py
   (py!"GetSubmodelElementByPath-Reference",
    [(py!"test_no_params", py!"test_no_params")]),
   -- submodel.py
   (py!"GetSubmodelElementByPath-Path",
    [(py!"test_no_params", py!"test_no_params")]),
   -- submodel.py
   (py!"GetFileByPath",
    [(py!"test_no_params", py!"test_no_params")]),
   -- submodel_repo.py
   (py!"GetAllSubmodels",
    [(py!"test_no_params", docstring py!"Invoke without parameters"),
     (py!"test_get_one", docstring py!"Pagination: Fetch exactly one"),
     (py!"test_pagination", docstring py!"Pagination: Fetch using cursor")]),
   -- submodel_repo.py
   (py!"GetAllSubmodels-Metadata",
    [(py!"test_no_params", docstring py!"Invoke without parameters"),
     (py!"test_get_one", docstring py!"Pagination: Fetch exactly one"),
     (py!"test_pagination", docstring py!"Pagination: Fetch using cursor")]),
   -- submodel_repo.py
   (py!"GetAllSubmodels-ValueOnly",
    [(py!"test_no_params", docstring py!"Invoke without parameters"),
     (py!"test_get_one", docstring py!"Pagination: Fetch exactly one"),
     (py!"test_pagination", docstring py!"Pagination: Fetch using cursor")]),
   -- submodel_repo.py
   (py!"GetAllSubmodels-Reference",
    [(py!"test_get_one", docstring py!"Pagination: Fetch exactly one"),
     (py!"test_pagination", docstring py!"Pagination: Fetch using cursor"),
     (py!"test_no_params", docstring py!"Invoke without parameters")]),
   -- submodel_repo.py
   (py!"GetAllSubmodels-Path",
    [(py!"test_get_one", docstring py!"Pagination: Fetch exactly one"),
     (py!"test_pagination", docstring py!"Pagination: Fetch using cursor"),
     (py!"test_no_params", docstring py!"Invoke without parameters")]),
   -- submodel_repo.py
   (py!"GetSubmodelById",
    [(py!"test_simple", docstring py!"Fetch submodel by id")]),
   -- submodel_repo.py
   (py!"GetSubmodelById-Metadata",
    [(py!"test_simple", docstring py!"Fetch submodel by id")]),
   -- submodel_repo.py
   (py!"GetSubmodelById-ValueOnly",
    [(py!"test_simple", docstring py!"Fetch submodel by id")]),
   -- submodel_repo.py
   (py!"GetSubmodelById-Reference",
    [(py!"test_simple", docstring py!"Fetch submodel by id")]),
   -- submodel_repo.py
   (py!"GetSubmodelById-Path",
    [(py!"test_simple", docstring py!"Fetch submodel by id")])]

def titlesOf (operation : Str) : List (Str × Str) := ((titles.find? fun n => n.1 == operation).map (·.2)).getD []

end Verif.Spec.Suites
