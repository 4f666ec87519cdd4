import Verif.Model.Meth
import Verif.Model.Tokens

/-! Generated by `tools/genmeth.py`: the functions of `ublox_derive/src/types.rs` and of `ublox_derive/src/lib.rs` as syntax, and their text; do not edit. -/

namespace Ublox.Gen.Meth
open Ublox.Meth

/-- `ublox_derive/src/types.rs:15` -/
def PackDesc_packet_payload_size_body : Sts :=
    .last (.call [i!"PackDesc", i!"fields_size"] (.cons (.meth (.field (.path [i!"self"]) i!"fields") i!"iter" .nil) .nil))

/-- `ublox_derive/src/types.rs:15` -/
def PackDesc_packet_payload_size : Fn := ⟨i!"PackDesc", i!"packet_payload_size", [i!"self"], PackDesc_packet_payload_size_body⟩

/-- `ublox_derive/src/types.rs:19` -/
def PackDesc_packet_payload_size_except_last_field_body : Sts :=
    .last (.call [i!"PackDesc", i!"fields_size"] (.cons (.meth (.meth (.meth (.field (.path [i!"self"]) i!"fields") i!"iter" .nil) i!"rev" .nil) i!"skip" (.cons (.num 1) .nil)) .nil))

/-- `ublox_derive/src/types.rs:19` -/
def PackDesc_packet_payload_size_except_last_field : Fn := ⟨i!"PackDesc", i!"packet_payload_size_except_last_field", [i!"self"], PackDesc_packet_payload_size_except_last_field_body⟩

/-- `ublox_derive/src/types.rs:23` -/
def PackDesc_packet_payload_size_except_size_fn_body : Sts :=
    .last (.call [i!"PackDesc", i!"fields_size"] (.cons (.methFn (.meth (.field (.path [i!"self"]) i!"fields") i!"iter" .nil) i!"filter" .nil [i!"f"] (.meth (.meth (.path [i!"f"]) i!"size_fn" .nil) i!"is_none" .nil)) .nil))

/-- `ublox_derive/src/types.rs:23` -/
def PackDesc_packet_payload_size_except_size_fn : Fn := ⟨i!"PackDesc", i!"packet_payload_size_except_size_fn", [i!"self"], PackDesc_packet_payload_size_except_size_fn_body⟩

/-- `ublox_derive/src/types.rs:27` -/
def PackDesc_fields_size_body : Sts :=
    .let_ i!"ret" (.num 0) <|
    .semi (.for_ i!"f" (.path [i!"iter"])
      (.let_ i!"size" (.try_ (.field (.path [i!"f"]) i!"size_bytes")) <|
      .semi (.assign i!"ret" (.meth (.meth (.path [i!"ret"]) i!"checked_add" (.cons (.meth (.path [i!"size"]) i!"get" .nil) .nil)) i!"expect" (.cons (.str c!"overflow during packet size calculation") .nil))) <|
      .nil)) <|
    .last (.call [i!"Some"] (.cons (.path [i!"ret"]) .nil))

/-- `ublox_derive/src/types.rs:27` -/
def PackDesc_fields_size : Fn := ⟨i!"PackDesc", i!"fields_size", [i!"iter"], PackDesc_fields_size_body⟩

/-- `ublox_derive/src/types.rs:53` -/
def PayloadLen_fixed_body : Sts :=
    .last (.ifLet (.ctor [i!"PayloadLen", i!"Fixed"] i!"len") (.path [i!"self"])
      (.last (.call [i!"Some"] (.cons (.path [i!"len"]) .nil)))
      (.last (.path [i!"None"])))

/-- `ublox_derive/src/types.rs:53` -/
def PayloadLen_fixed : Fn := ⟨i!"PayloadLen", i!"fixed", [i!"self"], PayloadLen_fixed_body⟩

/-- `ublox_derive/src/types.rs:72` -/
def PackField_size_fn_body : Sts :=
    .last (.methFn (.meth (.field (.field (.path [i!"self"]) i!"map") i!"map_type") i!"as_ref" .nil) i!"and_then" .nil [i!"m"] (.meth (.field (.path [i!"m"]) i!"size_fn") i!"as_ref" .nil))

/-- `ublox_derive/src/types.rs:72` -/
def PackField_size_fn : Fn := ⟨i!"PackField", i!"size_fn", [i!"self"], PackField_size_fn_body⟩

/-- `ublox_derive/src/types.rs:76` -/
def PackField_is_optional_body : Sts :=
    .last (.methFn (.meth (.field (.field (.path [i!"self"]) i!"map") i!"map_type") i!"as_ref" .nil) i!"map_or" (.cons (.path [i!"false"]) .nil) [i!"m"] (.call [i!"crate", i!"type_is_option"] (.cons (.field (.path [i!"m"]) i!"ty") .nil)))

/-- `ublox_derive/src/types.rs:76` -/
def PackField_is_optional : Fn := ⟨i!"PackField", i!"is_optional", [i!"self"], PackField_is_optional_body⟩

/-- `ublox_derive/src/types.rs:103` -/
def PackFieldMapDesc_new_body : Sts :=
    .let_ i!"convert_may_fail" (.field (.path [i!"x"]) i!"convert_may_fail") <|
    .let_ i!"scale_back" (.methFn (.meth (.field (.path [i!"x"]) i!"scale") i!"as_ref" .nil) i!"map" .nil [i!"x"] (.quote [.one (.toks t!"1. /"), .one (.var i!"x")])) <|
    .let_ i!"map_type" (.methFn (.field (.path [i!"x"]) i!"map_type") i!"map" .nil [i!"map_type"] (.block
      (.let_ i!"ty" (.field (.path [i!"map_type"]) i!"ty") <|
      .let_ i!"from_fn" (.methFn (.field (.path [i!"map_type"]) i!"from_fn") i!"unwrap_or_else" .nil [] (.block
        (.last (.ite (.not (.path [i!"convert_may_fail"]))
          (.last (.quote [.one (.toks t!"<"), .one (.var i!"ty"), .one (.toks t!"> :: from")]))
          (.last (.quote [.one (.toks t!"<"), .one (.var i!"ty"), .one (.toks t!"> :: from_unchecked")])))))) <|
      .let_ i!"is_valid_fn" (.methFn (.field (.path [i!"map_type"]) i!"is_valid_fn") i!"unwrap_or_else" .nil [] (.block
        (.last (.quote [.one (.toks t!"<"), .one (.var i!"ty"), .one (.toks t!"> :: is_valid")])))) <|
      .let_ i!"into_fn" (.methFn (.field (.path [i!"map_type"]) i!"into_fn") i!"unwrap_or_else" .nil [] (.block
        (.semi (.ite (.or (.eq (.path [i!"ty"]) (.parse t!"f32")) (.eq (.path [i!"ty"]) (.parse t!"f64")))
          (.last (.ifLet (.ctor [i!"Some"] i!"scale_back") (.path [i!"scale_back"])
            (.let_ i!"conv_method" (.formatIdent c!"as_" c!"" (.meth (.meth (.path [i!"raw_ty"]) i!"into_token_stream" .nil) i!"to_string" .nil)) <|
            .semi (.return_ (.quote [.one (.toks t!"ScaleBack:: <"), .one (.var i!"ty"), .one (.toks t!"> ("), .one (.var i!"scale_back"), .one (.toks t!")."), .one (.var i!"conv_method")])) <|
            .nil) .nil)) .nil) <|
        .last (.quote [.one (.toks t!"<"), .one (.var i!"ty"), .one (.toks t!"> :: into_raw")])))) <|
      .last (.lit [i!"MapTypeDesc"] (.cons i!"ty" (.path [i!"ty"]) (.cons i!"from_fn" (.path [i!"from_fn"]) (.cons i!"is_valid_fn" (.path [i!"is_valid_fn"]) (.cons i!"into_fn" (.path [i!"into_fn"]) (.cons i!"size_fn" (.field (.path [i!"map_type"]) i!"size_fn") .nil))))))))) <|
    .last (.lit [i!"Self"] (.cons i!"map_type" (.path [i!"map_type"]) (.cons i!"scale" (.field (.path [i!"x"]) i!"scale") (.cons i!"alias" (.field (.path [i!"x"]) i!"alias") (.cons i!"convert_may_fail" (.field (.path [i!"x"]) i!"convert_may_fail") (.cons i!"get_as_ref" (.field (.path [i!"x"]) i!"get_as_ref") .nil))))))

/-- `ublox_derive/src/types.rs:103` -/
def PackFieldMapDesc_new : Fn := ⟨i!"PackFieldMapDesc", i!"new", [i!"x", i!"raw_ty"], PackFieldMapDesc_new_body⟩

/-- `ublox_derive/src/types.rs:154` -/
def PackField_has_intermediate_type_body : Sts :=
    .last (.meth (.field (.field (.path [i!"self"]) i!"map") i!"map_type") i!"is_some" .nil)

/-- `ublox_derive/src/types.rs:154` -/
def PackField_has_intermediate_type : Fn := ⟨i!"PackField", i!"has_intermediate_type", [i!"self"], PackField_has_intermediate_type_body⟩

/-- `ublox_derive/src/types.rs:157` -/
def PackField_intermediate_type_body : Sts :=
    .last (.meth (.methFn (.meth (.field (.field (.path [i!"self"]) i!"map") i!"map_type") i!"as_ref" .nil) i!"map" .nil [i!"x"] (.field (.path [i!"x"]) i!"ty")) i!"unwrap_or" (.cons (.field (.path [i!"self"]) i!"ty") .nil))

/-- `ublox_derive/src/types.rs:157` -/
def PackField_intermediate_type : Fn := ⟨i!"PackField", i!"intermediate_type", [i!"self"], PackField_intermediate_type_body⟩

/-- `ublox_derive/src/types.rs:164` -/
def PackField_intermediate_field_name_body : Sts :=
    .last (.meth (.meth (.field (.field (.path [i!"self"]) i!"map") i!"alias") i!"as_ref" .nil) i!"unwrap_or" (.cons (.field (.path [i!"self"]) i!"name") .nil))

/-- `ublox_derive/src/types.rs:164` -/
def PackField_intermediate_field_name : Fn := ⟨i!"PackField", i!"intermediate_field_name", [i!"self"], PackField_intermediate_field_name_body⟩

/-- `ublox_derive/src/types.rs:167` -/
def PackField_is_field_raw_ty_byte_array_body : Sts :=
    .last (.ifLet (.ctor [i!"syn", i!"Type", i!"Array"] i!"fixed_array") (.field (.path [i!"self"]) i!"ty")
      (.last (.eq (.field (.path [i!"fixed_array"]) i!"elem") (.parse t!"u8")))
      (.last (.path [i!"false"])))

/-- `ublox_derive/src/types.rs:167` -/
def PackField_is_field_raw_ty_byte_array : Fn := ⟨i!"PackField", i!"is_field_raw_ty_byte_array", [i!"self"], PackField_is_field_raw_ty_byte_array_body⟩

/-- `ublox_derive/src/types.rs:1-231` -/
def typesRs : String := r#"use proc_macro2::TokenStream;
use quote::{quote, ToTokens};
use std::num::NonZeroUsize;
use syn::{Attribute, Ident, Type};

pub struct PackDesc {
    pub name: String,
    pub header: PackHeader,
    pub comment: String,
    pub fields: Vec<PackField>,
}

impl PackDesc {
    /// if packet has variable size, then `None`
    pub fn packet_payload_size(&self) -> Option<usize> {
        PackDesc::fields_size(self.fields.iter())
    }

    pub fn packet_payload_size_except_last_field(&self) -> Option<usize> {
        PackDesc::fields_size(self.fields.iter().rev().skip(1))
    }

    pub fn packet_payload_size_except_size_fn(&self) -> Option<usize> {
        PackDesc::fields_size(self.fields.iter().filter(|f| f.size_fn().is_none()))
    }

    fn fields_size<'a, I: Iterator<Item = &'a PackField>>(iter: I) -> Option<usize> {
        let mut ret: usize = 0;
        for f in iter {
            let size = f.size_bytes?;
            ret = ret
                .checked_add(size.get())
                .expect("overflow during packet size calculation");
        }
        Some(ret)
    }
}

pub struct PackHeader {
    pub class: u8,
    pub id: u8,
    pub payload_len: PayloadLen,
    pub flags: Vec<PacketFlag>,
}

#[derive(Debug, Clone, Copy)]
pub enum PayloadLen {
    Fixed(u16),
    Max(u16),
}

impl PayloadLen {
    pub fn fixed(&self) -> Option<u16> {
        if let PayloadLen::Fixed(len) = self {
            Some(*len)
        } else {
            None
        }
    }
}

#[derive(Debug)]
pub struct PackField {
    pub name: Ident,
    pub ty: Type,
    pub map: PackFieldMapDesc,
    pub comment: String,
    pub size_bytes: Option<NonZeroUsize>,
}

impl PackField {
    pub fn size_fn(&self) -> Option<&TokenStream> {
        self.map.map_type.as_ref().and_then(|m| m.size_fn.as_ref())
    }

    pub fn is_optional(&self) -> bool {
        self.map
            .map_type
            .as_ref()
            .map_or(false, |m| crate::type_is_option(&m.ty))
    }
}

#[derive(Debug)]
pub struct PackFieldMapDesc {
    pub map_type: Option<MapTypeDesc>,
    pub scale: Option<syn::LitFloat>,
    pub alias: Option<Ident>,
    pub convert_may_fail: bool,
    pub get_as_ref: bool,
}

#[derive(Debug)]
pub struct MapTypeDesc {
    pub ty: Type,
    pub from_fn: TokenStream,
    pub is_valid_fn: TokenStream,
    pub into_fn: TokenStream,
    pub size_fn: Option<TokenStream>,
}

impl PackFieldMapDesc {
    pub fn new(x: crate::input::PackFieldMap, raw_ty: &Type) -> Self {
        let convert_may_fail = x.convert_may_fail;
        let scale_back = x.scale.as_ref().map(|x| quote! { 1. / #x });
        let map_type = x.map_type.map(|map_type| {
            let ty = map_type.ty;
            let from_fn = map_type.from_fn.unwrap_or_else(|| {
                if !convert_may_fail {
                    quote! { <#ty>::from }
                } else {
                    quote! { <#ty>::from_unchecked }
                }
            });

            let is_valid_fn = map_type.is_valid_fn.unwrap_or_else(|| {
                quote! { <#ty>::is_valid }
            });

            let into_fn = map_type.into_fn.unwrap_or_else(|| {
                if ty == syn::parse_quote! {f32} || ty == syn::parse_quote! {f64} {
                    if let Some(scale_back) = scale_back {
                        let conv_method =
                            quote::format_ident!("as_{}", raw_ty.into_token_stream().to_string());

                        return quote! {
                            ScaleBack::<#ty>(#scale_back).#conv_method
                        };
                    }
                }

                quote! { <#ty>::into_raw }
            });

            MapTypeDesc {
                ty,
                from_fn,
                is_valid_fn,
                into_fn,
                size_fn: map_type.size_fn,
            }
        });
        Self {
            map_type,
            scale: x.scale,
            alias: x.alias,
            convert_may_fail: x.convert_may_fail,
            get_as_ref: x.get_as_ref,
        }
    }
}

impl PackField {
    pub fn has_intermediate_type(&self) -> bool {
        self.map.map_type.is_some()
    }
    pub fn intermediate_type(&self) -> &Type {
        self.map
            .map_type
            .as_ref()
            .map(|x| &x.ty)
            .unwrap_or(&self.ty)
    }
    pub fn intermediate_field_name(&self) -> &Ident {
        self.map.alias.as_ref().unwrap_or(&self.name)
    }
    pub fn is_field_raw_ty_byte_array(&self) -> bool {
        if let syn::Type::Array(ref fixed_array) = self.ty {
            *fixed_array.elem == syn::parse_quote!(u8)
        } else {
            false
        }
    }
}

pub struct UbxExtendEnum {
    pub name: Ident,
    pub repr: Type,
    pub from_fn: Option<UbxTypeFromFn>,
    pub rest_handling: Option<UbxEnumRestHandling>,
    pub into_fn: Option<UbxTypeIntoFn>,
    pub variants: Vec<(Ident, u8)>,
    pub attrs: Vec<syn::Attribute>,
}

#[derive(Clone, Copy, PartialEq, Eq)]
pub enum UbxTypeFromFn {
    From,
    FromUnchecked,
}

#[derive(Clone, Copy, PartialEq, Eq)]
pub enum UbxTypeIntoFn {
    Raw,
}

#[derive(Clone, Copy, PartialEq, Eq, Debug)]
pub enum UbxEnumRestHandling {
    Reserved,
    ErrorProne,
}

pub struct BitFlagsMacro {
    pub nbits: u32,
    pub vis: syn::Visibility,
    pub attrs: Vec<Attribute>,
    pub name: Ident,
    pub repr_ty: Type,
    pub consts: Vec<BitFlagsMacroItem>,
    pub from_fn: Option<UbxTypeFromFn>,
    pub into_fn: Option<UbxTypeIntoFn>,
    pub rest_handling: Option<UbxEnumRestHandling>,
}

pub struct BitFlagsMacroItem {
    pub attrs: Vec<Attribute>,
    pub name: Ident,
    pub value: u64,
}

#[derive(PartialEq, Eq, Clone, Copy)]
pub enum PacketFlag {
    DefaultForBuilder,
}

pub struct RecvPackets {
    pub union_enum_name: Ident,
    pub unknown_ty: Ident,
    pub all_packets: Vec<Ident>,
}
"#

/-- `ublox_derive/src/types.rs:1-231` -/
def typesRs_fns : List Fn :=
  [PackDesc_packet_payload_size, PackDesc_packet_payload_size_except_last_field, PackDesc_packet_payload_size_except_size_fn, PackDesc_fields_size, PayloadLen_fixed, PackField_size_fn, PackField_is_optional, PackFieldMapDesc_new, PackField_has_intermediate_type, PackField_intermediate_type, PackField_intermediate_field_name, PackField_is_field_raw_ty_byte_array]

/-- `ublox_derive/src/lib.rs:18` -/
def ubx_packet_recv_body : Sts :=
    .let_ i!"input" (.call [i!"parse_macro_input", i!"DeriveInput"] (.cons (.path [i!"input"]) .nil)) <|
    .let_ i!"ret" (.ifLet (.ctor [i!"Data", i!"Struct"] i!"data") (.field (.path [i!"input"]) i!"data")
      (.last (.call [i!"generate_code_for_recv_packet"] (.cons (.field (.path [i!"input"]) i!"ident") (.cons (.field (.path [i!"input"]) i!"attrs") (.cons (.field (.path [i!"data"]) i!"fields") .nil)))))
      (.last (.call [i!"Err"] (.cons (.call [i!"syn", i!"Error", i!"new"] (.cons (.meth (.field (.path [i!"input"]) i!"ident") i!"span" .nil) (.cons (.str c!"This attribute can only be used for struct") .nil))) .nil)))) <|
    .last (.methFn (.methFn (.path [i!"ret"]) i!"map" .nil [i!"x"] (.meth (.path [i!"x"]) i!"into" .nil)) i!"unwrap_or_else" .nil [i!"err"] (.meth (.meth (.path [i!"err"]) i!"to_compile_error" .nil) i!"into" .nil))

/-- `ublox_derive/src/lib.rs:18` -/
def ubx_packet_recv : Fn := ⟨0, i!"ubx_packet_recv", [i!"_attr", i!"input"], ubx_packet_recv_body⟩

/-- `ublox_derive/src/lib.rs:37` -/
def ubx_packet_send_body : Sts :=
    .let_ i!"input" (.call [i!"parse_macro_input", i!"DeriveInput"] (.cons (.path [i!"input"]) .nil)) <|
    .let_ i!"ret" (.ifLet (.ctor [i!"Data", i!"Struct"] i!"data") (.field (.path [i!"input"]) i!"data")
      (.last (.call [i!"generate_code_for_send_packet"] (.cons (.field (.path [i!"input"]) i!"ident") (.cons (.field (.path [i!"input"]) i!"attrs") (.cons (.field (.path [i!"data"]) i!"fields") .nil)))))
      (.last (.call [i!"Err"] (.cons (.call [i!"syn", i!"Error", i!"new"] (.cons (.meth (.field (.path [i!"input"]) i!"ident") i!"span" .nil) (.cons (.str c!"This attribute can only be used for struct") .nil))) .nil)))) <|
    .last (.methFn (.methFn (.path [i!"ret"]) i!"map" .nil [i!"x"] (.meth (.path [i!"x"]) i!"into" .nil)) i!"unwrap_or_else" .nil [i!"err"] (.meth (.meth (.path [i!"err"]) i!"to_compile_error" .nil) i!"into" .nil))

/-- `ublox_derive/src/lib.rs:37` -/
def ubx_packet_send : Fn := ⟨0, i!"ubx_packet_send", [i!"_attr", i!"input"], ubx_packet_send_body⟩

/-- `ublox_derive/src/lib.rs:56` -/
def ubx_packet_recv_send_body : Sts :=
    .let_ i!"input" (.call [i!"parse_macro_input", i!"DeriveInput"] (.cons (.path [i!"input"]) .nil)) <|
    .let_ i!"ret" (.ifLet (.ctor [i!"Data", i!"Struct"] i!"data") (.field (.path [i!"input"]) i!"data")
      (.last (.call [i!"generate_code_for_recv_send_packet"] (.cons (.field (.path [i!"input"]) i!"ident") (.cons (.field (.path [i!"input"]) i!"attrs") (.cons (.field (.path [i!"data"]) i!"fields") .nil)))))
      (.last (.call [i!"Err"] (.cons (.call [i!"syn", i!"Error", i!"new"] (.cons (.meth (.field (.path [i!"input"]) i!"ident") i!"span" .nil) (.cons (.str c!"This attribute can only be used for struct") .nil))) .nil)))) <|
    .last (.methFn (.methFn (.path [i!"ret"]) i!"map" .nil [i!"x"] (.meth (.path [i!"x"]) i!"into" .nil)) i!"unwrap_or_else" .nil [i!"err"] (.meth (.meth (.path [i!"err"]) i!"to_compile_error" .nil) i!"into" .nil))

/-- `ublox_derive/src/lib.rs:56` -/
def ubx_packet_recv_send : Fn := ⟨0, i!"ubx_packet_recv_send", [i!"_attr", i!"input"], ubx_packet_recv_send_body⟩

/-- `ublox_derive/src/lib.rs:75` -/
def ubx_extend_body : Sts :=
    .let_ i!"input" (.call [i!"parse_macro_input", i!"DeriveInput"] (.cons (.path [i!"input"]) .nil)) <|
    .let_ i!"ret" (.ifLet (.ctor [i!"Data", i!"Enum"] i!"data") (.field (.path [i!"input"]) i!"data")
      (.last (.call [i!"extend_enum"] (.cons (.field (.path [i!"input"]) i!"ident") (.cons (.field (.path [i!"input"]) i!"attrs") (.cons (.field (.path [i!"data"]) i!"variants") .nil)))))
      (.last (.call [i!"Err"] (.cons (.call [i!"syn", i!"Error", i!"new"] (.cons (.meth (.field (.path [i!"input"]) i!"ident") i!"span" .nil) (.cons (.str c!"This attribute can only be used for enum") .nil))) .nil)))) <|
    .last (.methFn (.methFn (.path [i!"ret"]) i!"map" .nil [i!"x"] (.meth (.path [i!"x"]) i!"into" .nil)) i!"unwrap_or_else" .nil [i!"err"] (.meth (.meth (.path [i!"err"]) i!"to_compile_error" .nil) i!"into" .nil))

/-- `ublox_derive/src/lib.rs:75` -/
def ubx_extend : Fn := ⟨0, i!"ubx_extend", [i!"_attr", i!"input"], ubx_extend_body⟩

/-- `ublox_derive/src/lib.rs:94` -/
def ubx_extend_bitflags_body : Sts :=
    .let_ i!"input" (.call [i!"parse_macro_input", i!"ItemMacro"] (.cons (.path [i!"input"]) .nil)) <|
    .last (.methFn (.methFn (.call [i!"extend_bitflags"] (.cons (.path [i!"input"]) .nil)) i!"map" .nil [i!"x"] (.meth (.path [i!"x"]) i!"into" .nil)) i!"unwrap_or_else" .nil [i!"err"] (.meth (.meth (.path [i!"err"]) i!"to_compile_error" .nil) i!"into" .nil))

/-- `ublox_derive/src/lib.rs:94` -/
def ubx_extend_bitflags : Fn := ⟨0, i!"ubx_extend_bitflags", [i!"_attr", i!"input"], ubx_extend_bitflags_body⟩

/-- `ublox_derive/src/lib.rs:106` -/
def define_recv_packets_body : Sts :=
    .last (.methFn (.methFn (.call [i!"do_define_recv_packets"] (.cons (.meth (.path [i!"input"]) i!"into" .nil) .nil)) i!"map" .nil [i!"x"] (.meth (.path [i!"x"]) i!"into" .nil)) i!"unwrap_or_else" .nil [i!"err"] (.meth (.meth (.path [i!"err"]) i!"to_compile_error" .nil) i!"into" .nil))

/-- `ublox_derive/src/lib.rs:106` -/
def define_recv_packets : Fn := ⟨0, i!"define_recv_packets", [i!"input"], define_recv_packets_body⟩

/-- `ublox_derive/src/lib.rs:112` -/
def generate_code_for_recv_packet_body : Sts :=
    .let_ i!"pack_desc" (.try_ (.call [i!"input", i!"parse_packet_description"] (.cons (.path [i!"pack_name"]) (.cons (.path [i!"attrs"]) (.cons (.path [i!"fields"]) .nil))))) <|
    .let_ i!"code" (.call [i!"output", i!"generate_types_for_packet"] (.cons (.path [i!"pack_desc"]) .nil)) <|
    .let_ i!"recv_code" (.call [i!"output", i!"generate_recv_code_for_packet"] (.cons (.path [i!"pack_desc"]) .nil)) <|
    .semi (.meth (.path [i!"code"]) i!"extend" (.cons (.path [i!"recv_code"]) .nil)) <|
    .last (.call [i!"Ok"] (.cons (.path [i!"code"]) .nil))

/-- `ublox_derive/src/lib.rs:112` -/
def generate_code_for_recv_packet : Fn := ⟨0, i!"generate_code_for_recv_packet", [i!"pack_name", i!"attrs", i!"fields"], generate_code_for_recv_packet_body⟩

/-- `ublox_derive/src/lib.rs:125` -/
def generate_code_for_send_packet_body : Sts :=
    .let_ i!"pack_desc" (.try_ (.call [i!"input", i!"parse_packet_description"] (.cons (.path [i!"pack_name"]) (.cons (.path [i!"attrs"]) (.cons (.path [i!"fields"]) .nil))))) <|
    .let_ i!"code" (.call [i!"output", i!"generate_types_for_packet"] (.cons (.path [i!"pack_desc"]) .nil)) <|
    .let_ i!"send_code" (.call [i!"output", i!"generate_send_code_for_packet"] (.cons (.path [i!"pack_desc"]) .nil)) <|
    .semi (.meth (.path [i!"code"]) i!"extend" (.cons (.path [i!"send_code"]) .nil)) <|
    .last (.call [i!"Ok"] (.cons (.path [i!"code"]) .nil))

/-- `ublox_derive/src/lib.rs:125` -/
def generate_code_for_send_packet : Fn := ⟨0, i!"generate_code_for_send_packet", [i!"pack_name", i!"attrs", i!"fields"], generate_code_for_send_packet_body⟩

/-- `ublox_derive/src/lib.rs:138` -/
def generate_code_for_recv_send_packet_body : Sts :=
    .let_ i!"pack_desc" (.try_ (.call [i!"input", i!"parse_packet_description"] (.cons (.path [i!"pack_name"]) (.cons (.path [i!"attrs"]) (.cons (.path [i!"fields"]) .nil))))) <|
    .let_ i!"code" (.call [i!"output", i!"generate_types_for_packet"] (.cons (.path [i!"pack_desc"]) .nil)) <|
    .let_ i!"send_code" (.call [i!"output", i!"generate_send_code_for_packet"] (.cons (.path [i!"pack_desc"]) .nil)) <|
    .semi (.meth (.path [i!"code"]) i!"extend" (.cons (.path [i!"send_code"]) .nil)) <|
    .let_ i!"recv_code" (.call [i!"output", i!"generate_recv_code_for_packet"] (.cons (.path [i!"pack_desc"]) .nil)) <|
    .semi (.meth (.path [i!"code"]) i!"extend" (.cons (.path [i!"recv_code"]) .nil)) <|
    .last (.call [i!"Ok"] (.cons (.path [i!"code"]) .nil))

/-- `ublox_derive/src/lib.rs:138` -/
def generate_code_for_recv_send_packet : Fn := ⟨0, i!"generate_code_for_recv_send_packet", [i!"pack_name", i!"attrs", i!"fields"], generate_code_for_recv_send_packet_body⟩

/-- `ublox_derive/src/lib.rs:153` -/
def extend_enum_body : Sts :=
    .let_ i!"ext_enum" (.try_ (.call [i!"input", i!"parse_ubx_enum_type"] (.cons (.path [i!"name"]) (.cons (.path [i!"attrs"]) (.cons (.path [i!"variants"]) .nil))))) <|
    .let_ i!"code" (.call [i!"output", i!"generate_code_to_extend_enum"] (.cons (.path [i!"ext_enum"]) .nil)) <|
    .last (.call [i!"Ok"] (.cons (.path [i!"code"]) .nil))

/-- `ublox_derive/src/lib.rs:153` -/
def extend_enum : Fn := ⟨0, i!"extend_enum", [i!"name", i!"attrs", i!"variants"], extend_enum_body⟩

/-- `ublox_derive/src/lib.rs:163` -/
def extend_bitflags_body : Sts :=
    .semi (.ite (.not (.meth (.field (.field (.path [i!"mac"]) i!"mac") i!"path") i!"is_ident" (.cons (.str c!"bitflags") .nil)))
      (.semi (.return_ (.call [i!"Err"] (.cons (.call [i!"syn", i!"Error", i!"new"] (.cons (.methFn (.methFn (.meth (.field (.path [i!"mac"]) i!"ident") i!"as_ref" .nil) i!"map" .nil [i!"x"] (.meth (.path [i!"x"]) i!"span" .nil)) i!"unwrap_or_else" .nil [] (.meth (.path [i!"mac"]) i!"span" .nil)) (.cons (.str c!"") .nil))) .nil))) <|
      .nil) .nil) <|
    .let_ i!"bitflags" (.try_ (.call [i!"input", i!"parse_bitflags"] (.cons (.path [i!"mac"]) .nil))) <|
    .last (.call [i!"output", i!"generate_code_to_extend_bitflags"] (.cons (.path [i!"bitflags"]) .nil))

/-- `ublox_derive/src/lib.rs:163` -/
def extend_bitflags : Fn := ⟨0, i!"extend_bitflags", [i!"mac"], extend_bitflags_body⟩

/-- `ublox_derive/src/lib.rs:180` -/
def do_define_recv_packets_body : Sts :=
    .let_ i!"recv_packs" (.try_ (.call [i!"input", i!"parse_idents_list"] (.cons (.path [i!"input"]) .nil))) <|
    .last (.call [i!"Ok"] (.cons (.call [i!"output", i!"generate_code_for_parse"] (.cons (.path [i!"recv_packs"]) .nil)) .nil))

/-- `ublox_derive/src/lib.rs:180` -/
def do_define_recv_packets : Fn := ⟨0, i!"do_define_recv_packets", [i!"input"], do_define_recv_packets_body⟩

/-- `ublox_derive/src/lib.rs:185` -/
def type_is_option_body : Sts :=
    .last (.matches (.path [i!"ty"]) (.ctor [i!"Type", i!"Path"] i!"typepath") (.and (.meth (.field (.path [i!"typepath"]) i!"qself") i!"is_none" .nil) (.call [i!"path_is_option"] (.cons (.field (.path [i!"typepath"]) i!"path") .nil))))

/-- `ublox_derive/src/lib.rs:185` -/
def type_is_option : Fn := ⟨0, i!"type_is_option", [i!"ty"], type_is_option_body⟩

/-- `ublox_derive/src/lib.rs:189` -/
def path_is_option_body : Sts :=
    .last (.and (.eq (.meth (.field (.path [i!"path"]) i!"segments") i!"len" .nil) (.num 1)) (.eq (.field (.meth (.meth (.meth (.field (.path [i!"path"]) i!"segments") i!"iter" .nil) i!"next" .nil) i!"unwrap" .nil) i!"ident") (.str c!"Option")))

/-- `ublox_derive/src/lib.rs:189` -/
def path_is_option : Fn := ⟨0, i!"path_is_option", [i!"path"], path_is_option_body⟩

/-- `ublox_derive/src/lib.rs:1-192` -/
def libRs : String := r#"extern crate proc_macro;

mod input;
mod output;
#[cfg(test)]
mod tests;
mod types;

use proc_macro2::TokenStream;
use quote::ToTokens;

use syn::{
    parse_macro_input, punctuated::Punctuated, spanned::Spanned, Attribute, Data, DeriveInput,
    Fields, Ident, Type, Variant,
};

#[proc_macro_attribute]
pub fn ubx_packet_recv(
    _attr: proc_macro::TokenStream,
    input: proc_macro::TokenStream,
) -> proc_macro::TokenStream {
    let input = parse_macro_input!(input as DeriveInput);
    let ret = if let Data::Struct(data) = input.data {
        generate_code_for_recv_packet(input.ident, input.attrs, data.fields)
    } else {
        Err(syn::Error::new(
            input.ident.span(),
            "This attribute can only be used for struct",
        ))
    };

    ret.map(|x| x.into())
        .unwrap_or_else(|err| err.to_compile_error().into())
}

#[proc_macro_attribute]
pub fn ubx_packet_send(
    _attr: proc_macro::TokenStream,
    input: proc_macro::TokenStream,
) -> proc_macro::TokenStream {
    let input = parse_macro_input!(input as DeriveInput);
    let ret = if let Data::Struct(data) = input.data {
        generate_code_for_send_packet(input.ident, input.attrs, data.fields)
    } else {
        Err(syn::Error::new(
            input.ident.span(),
            "This attribute can only be used for struct",
        ))
    };

    ret.map(|x| x.into())
        .unwrap_or_else(|err| err.to_compile_error().into())
}

#[proc_macro_attribute]
pub fn ubx_packet_recv_send(
    _attr: proc_macro::TokenStream,
    input: proc_macro::TokenStream,
) -> proc_macro::TokenStream {
    let input = parse_macro_input!(input as DeriveInput);
    let ret = if let Data::Struct(data) = input.data {
        generate_code_for_recv_send_packet(input.ident, input.attrs, data.fields)
    } else {
        Err(syn::Error::new(
            input.ident.span(),
            "This attribute can only be used for struct",
        ))
    };

    ret.map(|x| x.into())
        .unwrap_or_else(|err| err.to_compile_error().into())
}

#[proc_macro_attribute]
pub fn ubx_extend(
    _attr: proc_macro::TokenStream,
    input: proc_macro::TokenStream,
) -> proc_macro::TokenStream {
    let input = parse_macro_input!(input as DeriveInput);
    let ret = if let Data::Enum(data) = input.data {
        extend_enum(input.ident, input.attrs, data.variants)
    } else {
        Err(syn::Error::new(
            input.ident.span(),
            "This attribute can only be used for enum",
        ))
    };

    ret.map(|x| x.into())
        .unwrap_or_else(|err| err.to_compile_error().into())
}

#[proc_macro_attribute]
pub fn ubx_extend_bitflags(
    _attr: proc_macro::TokenStream,
    input: proc_macro::TokenStream,
) -> proc_macro::TokenStream {
    let input = parse_macro_input!(input as syn::ItemMacro);

    extend_bitflags(input)
        .map(|x| x.into())
        .unwrap_or_else(|err| err.to_compile_error().into())
}

#[proc_macro]
pub fn define_recv_packets(input: proc_macro::TokenStream) -> proc_macro::TokenStream {
    do_define_recv_packets(input.into())
        .map(|x| x.into())
        .unwrap_or_else(|err| err.to_compile_error().into())
}

fn generate_code_for_recv_packet(
    pack_name: Ident,
    attrs: Vec<Attribute>,
    fields: Fields,
) -> syn::Result<TokenStream> {
    let pack_desc = input::parse_packet_description(pack_name, attrs, fields)?;

    let mut code = output::generate_types_for_packet(&pack_desc);
    let recv_code = output::generate_recv_code_for_packet(&pack_desc);
    code.extend(recv_code);
    Ok(code)
}

fn generate_code_for_send_packet(
    pack_name: Ident,
    attrs: Vec<Attribute>,
    fields: Fields,
) -> syn::Result<TokenStream> {
    let pack_desc = input::parse_packet_description(pack_name, attrs, fields)?;

    let mut code = output::generate_types_for_packet(&pack_desc);
    let send_code = output::generate_send_code_for_packet(&pack_desc);
    code.extend(send_code);
    Ok(code)
}

fn generate_code_for_recv_send_packet(
    pack_name: Ident,
    attrs: Vec<Attribute>,
    fields: Fields,
) -> syn::Result<TokenStream> {
    let pack_desc = input::parse_packet_description(pack_name, attrs, fields)?;

    let mut code = output::generate_types_for_packet(&pack_desc);
    let send_code = output::generate_send_code_for_packet(&pack_desc);
    code.extend(send_code);
    let recv_code = output::generate_recv_code_for_packet(&pack_desc);
    code.extend(recv_code);
    Ok(code)
}

fn extend_enum(
    name: Ident,
    attrs: Vec<Attribute>,
    variants: Punctuated<Variant, syn::token::Comma>,
) -> syn::Result<TokenStream> {
    let ext_enum = input::parse_ubx_enum_type(name, attrs, variants)?;
    let code = output::generate_code_to_extend_enum(&ext_enum);
    Ok(code)
}

fn extend_bitflags(mac: syn::ItemMacro) -> syn::Result<TokenStream> {
    if !mac.mac.path.is_ident("bitflags") {
        return Err(syn::Error::new(
            mac.ident
                .as_ref()
                .map(|x| x.span())
                .unwrap_or_else(|| mac.span()),
            format!(
                "Expect bitflags invocation here, instead got '{}'",
                mac.mac.path.into_token_stream()
            ),
        ));
    }
    let bitflags = input::parse_bitflags(mac)?;
    output::generate_code_to_extend_bitflags(bitflags)
}

fn do_define_recv_packets(input: TokenStream) -> syn::Result<TokenStream> {
    let recv_packs = input::parse_idents_list(input)?;
    Ok(output::generate_code_for_parse(&recv_packs))
}

fn type_is_option(ty: &Type) -> bool {
    matches!(ty, Type::Path(ref typepath) if typepath.qself.is_none() && path_is_option(&typepath.path))
}

fn path_is_option(path: &syn::Path) -> bool {
    path.segments.len() == 1 && path.segments.iter().next().unwrap().ident == "Option"
}
"#

/-- `ublox_derive/src/lib.rs:1-192` -/
def libRs_fns : List Fn :=
  [ubx_packet_recv, ubx_packet_send, ubx_packet_recv_send, ubx_extend, ubx_extend_bitflags, define_recv_packets, generate_code_for_recv_packet, generate_code_for_send_packet, generate_code_for_recv_send_packet, extend_enum, extend_bitflags, do_define_recv_packets, type_is_option, path_is_option]

end Ublox.Gen.Meth
