import Verif.Model

/-!
# The submodel templates

Generated by tools/gen_templates.py from the text of test_cases/v3_0/submodel_templates.py. Do not edit.
-/

namespace Verif.Templates
open Verif

/-- the dataclasses (submodel_templates.py 42-330) -/
inductive TCls
  | phone | fax | email | iPCommunication | contactInformation | contactInformations | digitalNameplate
  deriving DecidableEq, Repr

/-- the enumerations -/
inductive TEnum
  | roleOfContactPerson | typeOfTelephone | typeOfFaxNumber | typeOfEmailAddress
  deriving DecidableEq, Repr

/-- the types of fields, without `Optional` and `List` -/
inductive TTy
  | str | date | lang
  | enum (e : TEnum)
  | cls (c : TCls)
  deriving DecidableEq, Repr

/-- a field: Python name, semantic id, cardinality as of `_unwrap` (parse_submodel.py 26-53; `none`: no upper bound), type -/
structure TField where
  name : Str
  semanticId : Str
  min : Nat
  max : Option Nat
  ty : TTy
  deriving DecidableEq, Repr

/-- values of the members of an enumeration -/
def tenumValues : TEnum → List Str
  | .roleOfContactPerson => [py!"0173-1#07-AAS927#001", py!"0173-1#07-AAS928#001", py!"0173-1#07-AAS929#001", py!"0173-1#07-AAS930#001", py!"0173-1#07-AAS931#001"]  -- submodel_templates.py 25-30
  | .typeOfTelephone => [py!"0173-1#07-AAS754#001", py!"0173-1#07-AAS755#001", py!"0173-1#07-AAS756#001", py!"0173-1#07-AAS757#001", py!"0173-1#07-AAS758#001", py!"0173-1#07-AAS759#001"]  -- submodel_templates.py 33-39
  | .typeOfFaxNumber => [py!"0173-1#07-AAS754#001", py!"0173-1#07-AAS756#001", py!"0173-1#07-AAS758#001"]  -- submodel_templates.py 57-60
  | .typeOfEmailAddress => [py!"0173-1#07-AAS754#001", py!"0173-1#07-AAS756#001", py!"0173-1#07-AAS757#001", py!"0173-1#07-AAS758#001"]  -- submodel_templates.py 77-81

/-- `dataclasses.fields` -/
def tfieldsOf : TCls → List TField
  -- submodel_templates.py 43-54
  | .phone => [
      ⟨py!"telephone_number", py!"0173-1#02-AAO136#002", 1, some 1, .lang⟩,
      ⟨py!"type_of_telephone", py!"0173-1#02-AAO137#003", 0, some 1, .enum .typeOfTelephone⟩,
      ⟨py!"available_time", py!"https://admin-shell.io/zvei/nameplate/1/0/ContactInformations/ContactInformation/AvailableTime/", 0, some 1, .lang⟩]
  -- submodel_templates.py 64-74
  | .fax => [
      ⟨py!"fax_number", py!"0173-1#02-AAO195#002", 1, some 1, .lang⟩,
      ⟨py!"type_of_fax_number", py!"0173-1#02-AAO196#003", 0, some 1, .enum .typeOfFaxNumber⟩]
  -- submodel_templates.py 85-97
  | .email => [
      ⟨py!"email_address", py!"0173-1#02-AAO198#002", 1, some 1, .str⟩,
      ⟨py!"public_key", py!"0173-1#02-AAO200#002", 0, some 1, .lang⟩,
      ⟨py!"type_of_email_address", py!"0173-1#02-AAO199#003", 0, some 1, .enum .typeOfEmailAddress⟩,
      ⟨py!"type_of_public_key", py!"0173-1#02-AAO201#002", 0, some 1, .lang⟩]
  -- submodel_templates.py 101-116
  | .iPCommunication => [
      ⟨py!"address_of_additional_link", py!"0173-1#02-AAQ326#002", 1, some 1, .str⟩,
      ⟨py!"type_of_communication", py!"https://admin-shell.io/zvei/nameplate/1/0/ContactInformations/ContactInformation/IPCommunication/TypeOfCommunication", 0, some 1, .str⟩,
      ⟨py!"available_time", py!"https://admin-shell.io/zvei/nameplate/1/0/ContactInformations/ContactInformation/AvailableTime/", 0, some 1, .str⟩]
  -- submodel_templates.py 120-236
  | .contactInformation => [
      ⟨py!"role_of_contact_person", py!"0173-1#02-AAO204#003", 0, some 1, .enum .roleOfContactPerson⟩,
      ⟨py!"national_code", py!"0173-1#02-AAO134#002", 0, some 1, .lang⟩,
      ⟨py!"language", py!"https://admin-shell.io/zvei/nameplate/1/0/ContactInformations/ContactInformation/Language", 0, none, .str⟩,
      ⟨py!"time_zone", py!"https://admin-shell.io/zvei/nameplate/1/0/ContactInformations/ContactInformation/TimeZone", 0, some 1, .str⟩,
      ⟨py!"city_town", py!"0173-1#02-AAO132#002", 0, some 1, .lang⟩,
      ⟨py!"company", py!"0173-1#02-AAW001#001", 0, some 1, .lang⟩,
      ⟨py!"department", py!"0173-1#02-AAO127#003", 0, some 1, .lang⟩,
      ⟨py!"phone", py!"https://admin-shell.io/zvei/nameplate/1/0/ContactInformations/ContactInformation/Phone", 0, some 1, .cls .phone⟩,
      ⟨py!"fax", py!"0173-1#02-AAQ834#005", 0, some 1, .cls .fax⟩,
      ⟨py!"email", py!"0173-1#02-AAQ836#005", 0, some 1, .cls .email⟩,
      ⟨py!"ipc_communication", py!"https://admin-shell.io/zvei/nameplate/1/0/ContactInformations/ContactInformation/IPCommunication", 0, none, .cls .iPCommunication⟩,
      ⟨py!"street", py!"0173-1#02-AAO128#002", 0, some 1, .lang⟩,
      ⟨py!"zip_code", py!"0173-1#02-AAO129#002", 0, some 1, .lang⟩,
      ⟨py!"po_box", py!"0173-1#02-AAO130#002", 0, some 1, .lang⟩,
      ⟨py!"zip_code_of_po_box", py!"0173-1#02-AAO131#002", 0, some 1, .lang⟩,
      ⟨py!"state_county", py!"0173-1#02-AAO133#002", 0, some 1, .lang⟩,
      ⟨py!"name_of_contact", py!"0173-1#02-AAO205#002", 0, some 1, .lang⟩,
      ⟨py!"first_name", py!"0173-1#02-AAO206#002", 0, some 1, .lang⟩,
      ⟨py!"middle_name", py!"0173-1#02-AAO207#002", 0, some 1, .lang⟩,
      ⟨py!"title", py!"0173-1#02-AAO208#003", 0, some 1, .lang⟩,
      ⟨py!"academic_title", py!"0173-1#02-AAO209#003", 0, some 1, .lang⟩,
      ⟨py!"further_details_of_contact", py!"0173-1#02-AAO210#002", 0, some 1, .lang⟩,
      ⟨py!"address_of_additional_link", py!"0173-1#02-AAQ326#002", 0, some 1, .str⟩]
  -- submodel_templates.py 241-246
  | .contactInformations => [
      ⟨py!"contact_information", py!"https://admin-shell.io/zvei/nameplate/1/0/ContactInformations/ContactInformation", 1, none, .cls .contactInformation⟩]
  -- submodel_templates.py 251-330
  | .digitalNameplate => [
      ⟨py!"uri_of_the_product", py!"0173-1#02-AAY811#001", 1, some 1, .str⟩,
      ⟨py!"manufacturer_name", py!"0173-1#02-AAO677#002", 1, some 1, .lang⟩,
      ⟨py!"manufacturer_product_designation", py!"0173-1#02-AAW338#001", 1, some 1, .lang⟩,
      ⟨py!"contact_information", py!"https://admin-shell.io/zvei/nameplate/1/0/ContactInformations/ContactInformation", 1, some 1, .cls .contactInformation⟩,
      ⟨py!"manufacturer_product_root", py!"0173-1#02-AAU732#001", 0, some 1, .lang⟩,
      ⟨py!"manufacturer_product_family", py!"0173-1#02-AAU731#001", 0, some 1, .lang⟩,
      ⟨py!"manufacturer_product_type", py!"0173-1#02-AAO057#002", 0, some 1, .lang⟩,
      ⟨py!"order_code_of_manufacturer", py!"0173-1#02-AAO227#002", 0, some 1, .lang⟩,
      ⟨py!"product_article_number_of_manufacturer", py!"0173-1#02-AAO676#003", 0, some 1, .lang⟩,
      ⟨py!"serial_number", py!"0173-1#02-AAM556#002", 0, some 1, .str⟩,
      ⟨py!"year_of_construction", py!"0173-1#02-AAP906#001", 1, some 1, .str⟩,
      ⟨py!"date_of_manufacture", py!"0173-1#02-AAR972#002", 0, some 1, .date⟩,
      ⟨py!"hardware_version", py!"0173-1#02-AAN270#002", 0, some 1, .lang⟩,
      ⟨py!"firmware_version", py!"0173-1#02-AAM985#002", 0, some 1, .lang⟩,
      ⟨py!"software_version", py!"0173-1#02-AAM737#002", 0, some 1, .lang⟩,
      ⟨py!"country_of_origin", py!"0173-1#02-AAO259#004", 0, some 1, .str⟩]

/-- names of the classes -/
def TCls.pyName : TCls → Str
  | .phone => py!"Phone"
  | .fax => py!"Fax"
  | .email => py!"Email"
  | .iPCommunication => py!"IPCommunication"
  | .contactInformation => py!"ContactInformation"
  | .contactInformations => py!"ContactInformations"
  | .digitalNameplate => py!"DigitalNameplate"

/-- names of the enumerations -/
def TEnum.pyName : TEnum → Str
  | .roleOfContactPerson => py!"RoleOfContactPerson"
  | .typeOfTelephone => py!"TypeOfTelephone"
  | .typeOfFaxNumber => py!"TypeOfFaxNumber"
  | .typeOfEmailAddress => py!"TypeOfEmailAddress"

/-- methods named `check_…` (only `check_family_or_type_present`, 328-330) -/
def checkNames : TCls → List Str
  | .digitalNameplate => [py!"check_family_or_type_present"]
  | _ => []

/-- submodel_templates.py 12-22 `templates` -/
def templates : List (Str × TCls) := [
  (py!"https://admin-shell.io/zvei/nameplate/1/0/ContactInformations", .contactInformations),
  (py!"https://admin-shell.io/zvei/nameplate/2/0/Nameplate", .digitalNameplate)]

/-- all classes -/
def allTCls : List TCls := [.phone, .fax, .email, .iPCommunication, .contactInformation, .contactInformations, .digitalNameplate]

end Verif.Templates
