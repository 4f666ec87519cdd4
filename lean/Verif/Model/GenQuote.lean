import Verif.Model.Quote
import Verif.Model.Tokens

/-! Generated by `tools/genquote.py`: the functions of `ublox_derive/src/output.rs` as syntax, and its text; do not edit. -/

namespace Ublox.Gen
open Code hiding Fn
open Quote

/-- `ublox_derive/src/output.rs:11` -/
def generate_debug_impl_body : Sts :=
    .let_ (.name i!"fields") (.methFn (.meth (.field (.path [i!"pack_descr"]) i!"fields") i!"iter" .nil) i!"map" .nil [i!"field"] (.block
      (.let_ (.name i!"field_name") (.field (.path [i!"field"]) i!"name") <|
      .let_ (.name i!"field_accessor") (.meth (.path [i!"field"]) i!"intermediate_field_name" .nil) <|
      .last (.quote [.one (.toks t!".field(stringify!("),
        .one (.var i!"field_name"),
        .one (.toks t!"), &self."),
        .one (.var i!"field_accessor"),
        .one (.toks t!"())")])))) <|
    .last (.quote [.one (.toks t!"impl core:: fmt:: Debug for"),
      .one (.var i!"ref_name"),
      .one (.toks t!"< 'a > { fn fmt(&self, f: &mut core:: fmt:: Formatter < 'a >) -> core:: fmt:: Result { f.debug_struct("),
      .one (.var i!"pack_name"),
      .one (.toks t!")"),
      .rep [.var i!"fields"] t!"",
      .one (.toks t!".finish() } }")])

/-- `ublox_derive/src/output.rs:11` -/
def generate_debug_impl : Fn := ⟨i!"generate_debug_impl", [i!"pack_name", i!"ref_name", i!"pack_descr"], generate_debug_impl_body⟩

/-- `ublox_derive/src/output.rs:1-29` -/
def outputRs0 : String := r#"use crate::types::BitFlagsMacro;
use crate::types::{
    PackDesc, PackField, PacketFlag, PayloadLen, RecvPackets, UbxEnumRestHandling, UbxExtendEnum,
    UbxTypeFromFn, UbxTypeIntoFn,
};
use proc_macro2::{Span, TokenStream};
use quote::{format_ident, quote, ToTokens};
use std::{collections::HashSet, convert::TryFrom};
use syn::{parse_quote, Ident, Type};

fn generate_debug_impl(pack_name: &str, ref_name: &Ident, pack_descr: &PackDesc) -> TokenStream {
    let fields = pack_descr.fields.iter().map(|field| {
        let field_name = &field.name;
        let field_accessor = field.intermediate_field_name();
        quote! {
            .field(stringify!(#field_name), &self.#field_accessor())
        }
    });
    quote! {
        impl core::fmt::Debug for #ref_name<'_> {
            fn fmt(&self, f: &mut core::fmt::Formatter<'_>) -> core::fmt::Result {
                f.debug_struct(#pack_name)
                    #(#fields)*
                    .finish()
            }
        }
    }
}

"#

/-- `ublox_derive/src/output.rs:30` -/
def generate_serialize_impl_body : Sts :=
    .let_ (.name i!"fields") (.methFn (.meth (.field (.path [i!"pack_descr"]) i!"fields") i!"iter" .nil) i!"map" .nil [i!"field"] (.block
      (.let_ (.name i!"field_name") (.field (.path [i!"field"]) i!"name") <|
      .let_ (.name i!"field_accessor") (.meth (.path [i!"field"]) i!"intermediate_field_name" .nil) <|
      .last (.ite (.bin .or (.meth (.field (.path [i!"field"]) i!"size_bytes") i!"is_some" .nil) (.meth (.path [i!"field"]) i!"is_optional" .nil))
        (.last (.quote [.one (.toks t!"state.serialize_entry(stringify!("),
          .one (.var i!"field_name"),
          .one (.toks t!"), &self."),
          .one (.var i!"field_accessor"),
          .one (.toks t!"())?;")]))
        (.last (.quote [.one (.toks t!"state.serialize_entry(stringify!("),
          .one (.var i!"field_name"),
          .one (.toks t!"), &crate:: ubx_packets:: FieldIter(self."),
          .one (.var i!"field_accessor"),
          .one (.toks t!"()))?;")])))))) <|
    .last (.quote [.one (.toks t!"#[cfg(feature = \"serde\")] impl SerializeUbxPacketFields for"),
      .one (.var i!"ref_name"),
      .one (.toks t!"< 'a > { fn serialize_fields < S > (&self, state: &mut S) -> Result < (), S:: Error > where S: serde:: ser:: SerializeMap, {"),
      .rep [.var i!"fields"] t!"",
      .one (.toks t!"Ok(()) } } #[cfg(feature = \"serde\")] impl serde:: Serialize for"),
      .one (.var i!"ref_name"),
      .one (.toks t!"< 'a > { fn serialize < S > (&self, serializer: S) -> Result < S:: Ok, S:: Error > where S: serde:: Serializer, { let mut state = serializer.serialize_map(None)?; self.serialize_fields(&mut state)?; state.end() } }")])

/-- `ublox_derive/src/output.rs:30` -/
def generate_serialize_impl : Fn := ⟨i!"generate_serialize_impl", [i!"_pack_name", i!"ref_name", i!"pack_descr"], generate_serialize_impl_body⟩

/-- `ublox_derive/src/output.rs:30-76` -/
def outputRs1 : String := r#"fn generate_serialize_impl(
    _pack_name: &str,
    ref_name: &Ident,
    pack_descr: &PackDesc,
) -> TokenStream {
    let fields = pack_descr.fields.iter().map(|field| {
        let field_name = &field.name;
        let field_accessor = field.intermediate_field_name();
        if field.size_bytes.is_some() || field.is_optional() {
            quote! {
                state.serialize_entry(stringify!(#field_name), &self.#field_accessor())?;
            }
        } else {
            quote! {
                state.serialize_entry(
                    stringify!(#field_name),
                    &crate::ubx_packets::FieldIter(self.#field_accessor())
                )?;
            }
        }
    });
    quote! {
        #[cfg(feature = "serde")]
        impl SerializeUbxPacketFields for #ref_name<'_> {
            fn serialize_fields<S>(&self, state: &mut S) -> Result<(), S::Error>
            where
                S: serde::ser::SerializeMap,
            {
                #(#fields)*
                Ok(())
            }
        }

        #[cfg(feature = "serde")]
        impl serde::Serialize for #ref_name<'_> {
            fn serialize<S>(&self, serializer: S) -> Result<S::Ok, S::Error>
            where
                S: serde::Serializer,
            {
                let mut state = serializer.serialize_map(None)?;
                self.serialize_fields(&mut state)?;
                state.end()
            }
        }
    }
}

"#

/-- `ublox_derive/src/output.rs:77`, the body of a loop in `generate_recv_code_for_packet` -/
def generate_recv_code_for_packet_loop0 : Sts :=
    .let_ (.name i!"ty") (.meth (.path [i!"f"]) i!"intermediate_type" .nil) <|
    .let_ (.name i!"get_name") (.meth (.path [i!"f"]) i!"intermediate_field_name" .nil) <|
    .let_ (.name i!"field_comment") (.field (.path [i!"f"]) i!"comment") <|
    .last (.ifLet (.ctor1 [i!"Some"] (.name i!"size_bytes")) (.methFn (.field (.path [i!"f"]) i!"size_bytes") i!"map" .nil [i!"x"] (.meth (.path [i!"x"]) i!"get" .nil))
      (.let_ (.name i!"get_raw") (.call [i!"get_raw_field_code"] (.cons (.path [i!"f"]) (.cons (.path [i!"off"]) (.cons (.quote [.one (.toks t!"self. 0")]) .nil)))) <|
      .let_ (.name i!"new_line") (.quote [.one (.toks t!"let val ="),
        .one (.var i!"get_raw"),
        .one (.toks t!";")]) <|
      .let_ (.name i!"get_value_lines") (.vec (.cons (.path [i!"new_line"]) .nil)) <|
      .semi (.ifLet (.ctor1 [i!"Some"] (.name i!"out_ty")) (.field (.field (.path [i!"f"]) i!"map") i!"map_type")
        (.let_ (.name i!"get_raw_name") (.formatIdent c!"" c!"_raw" (.path [i!"get_name"])) <|
        .let_ (.name i!"slicetype") (.meth (.call [i!"syn", i!"parse_str"] (.cons (.str c!"&[u8]") .nil)) i!"unwrap" .nil) <|
        .let_ (.name i!"raw_ty") (.ite (.meth (.path [i!"f"]) i!"is_field_raw_ty_byte_array" .nil)
          (.last (.path [i!"slicetype"]))
          (.last (.field (.path [i!"f"]) i!"ty"))) <|
        .semi (.meth (.path [i!"getters"]) i!"push" (.cons (.quote [.one (.toks t!"#[doc ="),
          .one (.var i!"field_comment"),
          .one (.toks t!"] #[inline] pub fn"),
          .one (.var i!"get_raw_name"),
          .one (.toks t!"(&self) ->"),
          .one (.var i!"raw_ty"),
          .one (.toks t!"{"),
          .rep [.var i!"get_value_lines"] t!"",
          .one (.toks t!"val }")]) .nil)) <|
        .semi (.ite (.field (.field (.path [i!"f"]) i!"map") i!"convert_may_fail")
          (.let_ (.name i!"get_val") (.call [i!"get_raw_field_code"] (.cons (.path [i!"f"]) (.cons (.path [i!"off"]) (.cons (.quote [.one (.toks t!"payload")]) .nil)))) <|
          .let_ (.name i!"is_valid_fn") (.field (.path [i!"out_ty"]) i!"is_valid_fn") <|
          .semi (.meth (.path [i!"field_validators"]) i!"push" (.cons (.quote [.one (.toks t!"let val ="),
            .one (.var i!"get_val"),
            .one (.toks t!"; if !"),
            .one (.var i!"is_valid_fn"),
            .one (.toks t!"(val) { return Err(ParserError:: InvalidField { packet:"),
            .one (.var i!"pack_name"),
            .one (.toks t!", field: stringify!("),
            .one (.var i!"get_name"),
            .one (.toks t!") }); }")]) .nil)) <|
          .nil) .nil) <|
        .let_ (.name i!"from_fn") (.field (.path [i!"out_ty"]) i!"from_fn") <|
        .semi (.meth (.path [i!"get_value_lines"]) i!"push" (.cons (.quote [.one (.toks t!"let val ="),
          .one (.var i!"from_fn"),
          .one (.toks t!"(val);")]) .nil)) <|
        .nil) .nil) <|
      .semi (.ifLet (.ctor1 [i!"Some"] (.name i!"scale")) (.field (.field (.path [i!"f"]) i!"map") i!"scale")
        (.semi (.meth (.path [i!"get_value_lines"]) i!"push" (.cons (.quote [.one (.toks t!"let val = val *"),
          .one (.var i!"scale"),
          .one (.toks t!";")]) .nil)) <|
        .nil) .nil) <|
      .semi (.meth (.path [i!"getters"]) i!"push" (.cons (.quote [.one (.toks t!"#[doc ="),
        .one (.var i!"field_comment"),
        .one (.toks t!"] #[inline] pub fn"),
        .one (.var i!"get_name"),
        .one (.toks t!"(&self) ->"),
        .one (.var i!"ty"),
        .one (.toks t!"{"),
        .rep [.var i!"get_value_lines"] t!"",
        .one (.toks t!"val }")]) .nil)) <|
      .semi (.addAssign i!"off" (.path [i!"size_bytes"])) <|
      .nil)
      (.semi (.assert (.bin .or (.bin .eq (.path [i!"field_index"]) (.bin .sub (.meth (.field (.path [i!"pack_descr"]) i!"fields") i!"len" .nil) (.num 1 0))) (.meth (.meth (.path [i!"f"]) i!"size_fn" .nil) i!"is_some" .nil))) <|
      .let_ (.name i!"range") (.ifLet (.ctor1 [i!"Some"] (.name i!"size_fn")) (.meth (.path [i!"f"]) i!"size_fn" .nil)
        (.let_ (.name i!"range") (.quote [.one (.toks t!"{ let offset ="),
          .one (.var i!"off"),
          .rep [.toks t!"+ self.", .var i!"size_fns", .toks t!"()"] t!"",
          .one (.toks t!"; offset..offset + self."),
          .one (.var i!"size_fn"),
          .one (.toks t!"() }")]) <|
        .semi (.meth (.path [i!"size_fns"]) i!"push" (.cons (.path [i!"size_fn"]) .nil)) <|
        .last (.path [i!"range"]))
        (.last (.quote [.one (.var i!"off"),
          .one (.toks t!"..")]))) <|
      .let_ (.name i!"get_value_lines") (.vec (.cons (.quote [.one (.toks t!"&self. 0 ["),
        .one (.var i!"range"),
        .one (.toks t!"]")]) .nil)) <|
      .semi (.ifLet (.ctor1 [i!"Some"] (.name i!"out_ty")) (.field (.field (.path [i!"f"]) i!"map") i!"map_type")
        (.let_ (.name i!"get_raw") (.index (.path [i!"get_value_lines"]) 0) <|
        .let_ (.name i!"new_line") (.quote [.one (.toks t!"let val ="),
          .one (.var i!"get_raw"),
          .one (.toks t!";")]) <|
        .semi (.set i!"get_value_lines" 0 (.path [i!"new_line"])) <|
        .let_ (.name i!"from_fn") (.field (.path [i!"out_ty"]) i!"from_fn") <|
        .semi (.meth (.path [i!"get_value_lines"]) i!"push" (.cons (.quote [.one (.var i!"from_fn"),
          .one (.toks t!"(val)")]) .nil)) <|
        .last (.ite (.field (.field (.path [i!"f"]) i!"map") i!"convert_may_fail")
          (.let_ (.name i!"is_valid_fn") (.field (.path [i!"out_ty"]) i!"is_valid_fn") <|
          .semi (.meth (.path [i!"field_validators"]) i!"push" (.cons (.quote [.one (.toks t!"let val = &payload["),
            .one (.var i!"off"),
            .one (.toks t!"..]; if !"),
            .one (.var i!"is_valid_fn"),
            .one (.toks t!"(val) { return Err(ParserError:: InvalidField { packet:"),
            .one (.var i!"pack_name"),
            .one (.toks t!", field: stringify!("),
            .one (.var i!"get_name"),
            .one (.toks t!") }); }")]) .nil)) <|
          .nil) .nil)) .nil) <|
      .let_ (.name i!"out_ty") (.ite (.meth (.path [i!"f"]) i!"has_intermediate_type" .nil)
        (.last (.meth (.path [i!"ty"]) i!"clone" .nil))
        (.last (.parse t!"&[u8]"))) <|
      .semi (.meth (.path [i!"getters"]) i!"push" (.cons (.quote [.one (.toks t!"#[doc ="),
        .one (.var i!"field_comment"),
        .one (.toks t!"] #[inline] pub fn"),
        .one (.var i!"get_name"),
        .one (.toks t!"(&self) ->"),
        .one (.var i!"out_ty"),
        .one (.toks t!"{"),
        .rep [.var i!"get_value_lines"] t!"",
        .one (.toks t!"}")]) .nil)) <|
      .nil))

/-- `ublox_derive/src/output.rs:77` -/
def generate_recv_code_for_packet_body : Sts :=
    .let_ (.name i!"pack_name") (.field (.path [i!"pack_descr"]) i!"name") <|
    .let_ (.name i!"ref_name") (.formatIdent c!"" c!"Ref" (.field (.path [i!"pack_descr"]) i!"name")) <|
    .let_ (.name i!"getters") (.call [i!"Vec", i!"with_capacity"] (.cons (.meth (.field (.path [i!"pack_descr"]) i!"fields") i!"len" .nil) .nil)) <|
    .let_ (.name i!"field_validators") (.call [i!"Vec", i!"new"] .nil) <|
    .let_ (.name i!"size_fns") (.call [i!"Vec", i!"new"] .nil) <|
    .let_ (.name i!"off") (.num 0 i!"usize") <|
    .semi (.for_ (.pair (.name i!"field_index") (.name i!"f")) (.meth (.meth (.field (.path [i!"pack_descr"]) i!"fields") i!"iter" .nil) i!"enumerate" .nil) generate_recv_code_for_packet_loop0) <|
    .let_ (.name i!"struct_comment") (.field (.path [i!"pack_descr"]) i!"comment") <|
    .let_ (.name i!"validator") (.ifLet (.ctor1 [i!"Some"] (.name i!"payload_len")) (.meth (.path [i!"pack_descr"]) i!"packet_payload_size" .nil)
      (.last (.quote [.one (.toks t!"fn validate(payload: &[u8]) -> Result < (), ParserError > { let expect ="),
        .one (.var i!"payload_len"),
        .one (.toks t!"; let got = payload.len(); if got == expect {"),
        .rep [.var i!"field_validators"] t!"",
        .one (.toks t!"Ok(()) } else { Err(ParserError:: InvalidPacketLen { packet:"),
        .one (.var i!"pack_name"),
        .one (.toks t!", expect, got }) } }")]))
      (.let_ (.name i!"size_fns") (.meth (.methFn (.meth (.field (.path [i!"pack_descr"]) i!"fields") i!"iter" .nil) i!"filter_map" .nil [i!"f"] (.meth (.path [i!"f"]) i!"size_fn" .nil)) i!"collect" .nil) <|
      .let_ (.name i!"min_size") (.ite (.meth (.path [i!"size_fns"]) i!"is_empty" .nil)
        (.let_ (.name i!"size") (.meth (.meth (.path [i!"pack_descr"]) i!"packet_payload_size_except_last_field" .nil) i!"expect" (.cons (.str c!"except last all fields should have fixed size") .nil)) <|
        .last (.quote [.one (.var i!"size"),
          .one (.toks t!";")]))
        (.let_ (.name i!"size") (.meth (.meth (.path [i!"pack_descr"]) i!"packet_payload_size_except_size_fn" .nil) i!"unwrap_or_default" .nil) <|
        .last (.quote [.one (.toks t!"{ if got <"),
          .one (.var i!"size"),
          .one (.toks t!"{ return Err(ParserError:: InvalidPacketLen { packet:"),
          .one (.var i!"pack_name"),
          .one (.toks t!", expect:"),
          .one (.var i!"size"),
          .one (.toks t!", got }); }"),
          .one (.var i!"size"),
          .rep [.toks t!"+", .var i!"ref_name", .toks t!"(payload).", .var i!"size_fns", .toks t!"()"] t!"",
          .one (.toks t!"}")]))) <|
      .last (.quote [.one (.toks t!"fn validate(payload: &[u8]) -> Result < (), ParserError > { let got = payload.len(); let min ="),
        .one (.var i!"min_size"),
        .one (.toks t!"; if got >= min {"),
        .rep [.var i!"field_validators"] t!"",
        .one (.toks t!"Ok(()) } else { Err(ParserError:: InvalidPacketLen { packet:"),
        .one (.var i!"pack_name"),
        .one (.toks t!", expect: min, got }) } }")]))) <|
    .let_ (.name i!"debug_impl") (.call [i!"generate_debug_impl"] (.cons (.path [i!"pack_name"]) (.cons (.path [i!"ref_name"]) (.cons (.path [i!"pack_descr"]) .nil)))) <|
    .let_ (.name i!"serialize_impl") (.call [i!"generate_serialize_impl"] (.cons (.path [i!"pack_name"]) (.cons (.path [i!"ref_name"]) (.cons (.path [i!"pack_descr"]) .nil)))) <|
    .last (.quote [.one (.toks t!"#[doc ="),
      .one (.var i!"struct_comment"),
      .one (.toks t!"] #[doc = \"Contains a reference to an underlying buffer, contains accessor methods to retrieve data.\"] pub struct"),
      .one (.var i!"ref_name"),
      .one (.toks t!"< 'a > (&'a [u8]); impl < 'a >"),
      .one (.var i!"ref_name"),
      .one (.toks t!"< 'a > { #[inline] pub fn as_bytes(&self) -> &[u8] { self. 0 }"),
      .rep [.var i!"getters"] t!"",
      .one (.var i!"validator"),
      .one (.toks t!"}"),
      .one (.var i!"debug_impl"),
      .one (.var i!"serialize_impl")])

/-- `ublox_derive/src/output.rs:77` -/
def generate_recv_code_for_packet : Fn := ⟨i!"generate_recv_code_for_packet", [i!"pack_descr"], generate_recv_code_for_packet_body⟩

/-- `ublox_derive/src/output.rs:77-275` -/
def outputRs2 : String := r#"pub fn generate_recv_code_for_packet(pack_descr: &PackDesc) -> TokenStream {
    let pack_name = &pack_descr.name;
    let ref_name = format_ident!("{}Ref", pack_descr.name);

    let mut getters = Vec::with_capacity(pack_descr.fields.len());
    let mut field_validators = Vec::new();
    let mut size_fns = Vec::new();

    let mut off = 0usize;
    for (field_index, f) in pack_descr.fields.iter().enumerate() {
        let ty = f.intermediate_type();
        let get_name = f.intermediate_field_name();
        let field_comment = &f.comment;

        if let Some(size_bytes) = f.size_bytes.map(|x| x.get()) {
            let get_raw = get_raw_field_code(f, off, quote! {self.0});
            let new_line = quote! { let val = #get_raw;  };
            let mut get_value_lines = vec![new_line];

            if let Some(ref out_ty) = f.map.map_type {
                let get_raw_name = format_ident!("{}_raw", get_name);
                let slicetype = syn::parse_str("&[u8]").unwrap();
                let raw_ty = if f.is_field_raw_ty_byte_array() {
                    &slicetype
                } else {
                    &f.ty
                };
                getters.push(quote! {
                    #[doc = #field_comment]
                    #[inline]
                    pub fn #get_raw_name(&self) -> #raw_ty {
                        #(#get_value_lines)*
                        val
                    }
                });

                if f.map.convert_may_fail {
                    let get_val = get_raw_field_code(f, off, quote! { payload });
                    let is_valid_fn = &out_ty.is_valid_fn;
                    field_validators.push(quote! {
                        let val = #get_val;
                        if !#is_valid_fn(val) {
                            return Err(ParserError::InvalidField{
                                packet: #pack_name,
                                field: stringify!(#get_name)
                            });
                        }
                    });
                }
                let from_fn = &out_ty.from_fn;
                get_value_lines.push(quote! {
                    let val = #from_fn(val);
                });
            }

            if let Some(ref scale) = f.map.scale {
                get_value_lines.push(quote! { let val = val * #scale; });
            }
            getters.push(quote! {
                #[doc = #field_comment]
                #[inline]
                pub fn #get_name(&self) -> #ty {
                    #(#get_value_lines)*
                    val
                }
            });
            off += size_bytes;
        } else {
            assert!(field_index == pack_descr.fields.len() - 1 || f.size_fn().is_some());

            let range = if let Some(size_fn) = f.size_fn() {
                let range = quote! {
                    {
                        let offset = #off #(+ self.#size_fns())*;
                        offset..offset+self.#size_fn()
                    }
                };
                size_fns.push(size_fn);
                range
            } else {
                quote! { #off.. }
            };

            let mut get_value_lines = vec![quote! { &self.0[#range] }];
            if let Some(ref out_ty) = f.map.map_type {
                let get_raw = &get_value_lines[0];
                let new_line = quote! { let val = #get_raw ;  };
                get_value_lines[0] = new_line;
                let from_fn = &out_ty.from_fn;
                get_value_lines.push(quote! {
                    #from_fn(val)
                });

                if f.map.convert_may_fail {
                    let is_valid_fn = &out_ty.is_valid_fn;
                    field_validators.push(quote! {
                        let val = &payload[#off..];
                        if !#is_valid_fn(val) {
                            return Err(ParserError::InvalidField{
                                packet: #pack_name,
                                field: stringify!(#get_name)
                            });
                        }
                    });
                }
            }
            let out_ty = if f.has_intermediate_type() {
                ty.clone()
            } else {
                parse_quote! { &[u8] }
            };
            getters.push(quote! {
                #[doc = #field_comment]
                #[inline]
                pub fn #get_name(&self) -> #out_ty {
                    #(#get_value_lines)*
                }
            });
        }
    }
    let struct_comment = &pack_descr.comment;
    let validator = if let Some(payload_len) = pack_descr.packet_payload_size() {
        quote! {
            fn validate(payload: &[u8]) -> Result<(), ParserError> {
                let expect = #payload_len;
                let got = payload.len();
                if got ==  expect {
                    #(#field_validators)*
                    Ok(())
                } else {
                    Err(ParserError::InvalidPacketLen{ packet: #pack_name, expect, got })
                }
            }
        }
    } else {
        let size_fns: Vec<_> = pack_descr
            .fields
            .iter()
            .filter_map(|f| f.size_fn())
            .collect();

        let min_size = if size_fns.is_empty() {
            let size = pack_descr
                .packet_payload_size_except_last_field()
                .expect("except last all fields should have fixed size");
            quote! {
                #size;
            }
        } else {
            let size = pack_descr
                .packet_payload_size_except_size_fn()
                .unwrap_or_default();
            quote! {
                {
                    if got < #size {
                        return Err(ParserError::InvalidPacketLen{ packet: #pack_name, expect: #size, got });
                    }
                    #size #(+ #ref_name(payload).#size_fns())*
                }
            }
        };

        quote! {
            fn validate(payload: &[u8]) -> Result<(), ParserError> {
                let got = payload.len();
                let min = #min_size;
                if got >= min {
                    #(#field_validators)*
                    Ok(())
                } else {
                    Err(ParserError::InvalidPacketLen{ packet: #pack_name, expect: min, got })
                }
            }
        }
    };

    let debug_impl = generate_debug_impl(pack_name, &ref_name, pack_descr);
    let serialize_impl = generate_serialize_impl(pack_name, &ref_name, pack_descr);

    quote! {
        #[doc = #struct_comment]
        #[doc = "Contains a reference to an underlying buffer, contains accessor methods to retrieve data."]
        pub struct #ref_name<'a>(&'a [u8]);
        impl<'a> #ref_name<'a> {
            #[inline]
            pub fn as_bytes(&self) -> &[u8] {
                self.0
            }

            #(#getters)*

            #validator
        }

        #debug_impl
        #serialize_impl
    }
}

"#

/-- `ublox_derive/src/output.rs:276` -/
def generate_types_for_packet_body : Sts :=
    .let_ (.name i!"name") (.call [i!"Ident", i!"new"] (.cons (.field (.path [i!"pack_descr"]) i!"name") (.cons (.call [i!"Span", i!"call_site"] .nil) .nil))) <|
    .let_ (.name i!"class") (.field (.field (.path [i!"pack_descr"]) i!"header") i!"class") <|
    .let_ (.name i!"id") (.field (.field (.path [i!"pack_descr"]) i!"header") i!"id") <|
    .let_ (.name i!"fixed_payload_len") (.match_ (.meth (.field (.field (.path [i!"pack_descr"]) i!"header") i!"payload_len") i!"fixed" .nil)
      (.cons (.ctor1 [i!"Some"] (.name i!"x")) (.quote [.one (.toks t!"Some("),
        .one (.var i!"x"),
        .one (.toks t!")")])
      (.cons (.ctor0 [i!"None"]) (.quote [.one (.toks t!"None")])
      .nil))) <|
    .let_ (.name i!"struct_comment") (.field (.path [i!"pack_descr"]) i!"comment") <|
    .let_ (.name i!"max_payload_len") (.match_ (.field (.field (.path [i!"pack_descr"]) i!"header") i!"payload_len")
      (.cons (.ctor1 [i!"PayloadLen", i!"Fixed"] (.name i!"x")) (.path [i!"x"])
      (.cons (.ctor1 [i!"PayloadLen", i!"Max"] (.name i!"x")) (.path [i!"x"])
      .nil))) <|
    .last (.quote [.one (.toks t!"#[doc ="),
      .one (.var i!"struct_comment"),
      .one (.toks t!"] pub struct"),
      .one (.var i!"name"),
      .one (.toks t!"; impl UbxPacketMeta for"),
      .one (.var i!"name"),
      .one (.toks t!"{ const CLASS: u8 ="),
      .one (.var i!"class"),
      .one (.toks t!"; const ID: u8 ="),
      .one (.var i!"id"),
      .one (.toks t!"; const FIXED_PAYLOAD_LEN: Option < u16 >="),
      .one (.var i!"fixed_payload_len"),
      .one (.toks t!"; const MAX_PAYLOAD_LEN: u16 ="),
      .one (.var i!"max_payload_len"),
      .one (.toks t!"; }")])

/-- `ublox_derive/src/output.rs:276` -/
def generate_types_for_packet : Fn := ⟨i!"generate_types_for_packet", [i!"pack_descr"], generate_types_for_packet_body⟩

/-- `ublox_derive/src/output.rs:276-301` -/
def outputRs3 : String := r#"pub fn generate_types_for_packet(pack_descr: &PackDesc) -> TokenStream {
    let name = Ident::new(&pack_descr.name, Span::call_site());
    let class = pack_descr.header.class;
    let id = pack_descr.header.id;
    let fixed_payload_len = match pack_descr.header.payload_len.fixed() {
        Some(x) => quote! { Some(#x) },
        None => quote! { None },
    };
    let struct_comment = &pack_descr.comment;
    let max_payload_len = match pack_descr.header.payload_len {
        PayloadLen::Fixed(x) => x,
        PayloadLen::Max(x) => x,
    };
    quote! {

        #[doc = #struct_comment]
        pub struct #name;
        impl UbxPacketMeta for #name {
            const CLASS: u8 = #class;
            const ID: u8 = #id;
            const FIXED_PAYLOAD_LEN: Option<u16> = #fixed_payload_len;
            const MAX_PAYLOAD_LEN: u16 = #max_payload_len;
        }
    }
}

"#

/-- `ublox_derive/src/output.rs:302`, the body of a loop in `generate_send_code_for_packet` -/
def generate_send_code_for_packet_loop0 : Sts :=
    .let_ (.name i!"byte_off") (.meth (.meth (.path [i!"off"]) i!"checked_add" (.cons (.path [i!"i"]) .nil)) i!"unwrap" .nil) <|
    .semi (.meth (.path [i!"pack_fields"]) i!"push" (.cons (.quote [.one (.toks t!"ret["),
      .one (.var i!"byte_off"),
      .one (.toks t!"] = bytes["),
      .one (.var i!"i"),
      .one (.toks t!"]")]) .nil)) <|
    .nil

/-- `ublox_derive/src/output.rs:302`, the body of a loop in `generate_send_code_for_packet` -/
def generate_send_code_for_packet_loop1 : Sts :=
    .let_ (.name i!"ty") (.meth (.path [i!"f"]) i!"intermediate_type" .nil) <|
    .let_ (.name i!"name") (.meth (.path [i!"f"]) i!"intermediate_field_name" .nil) <|
    .let_ (.name i!"field_comment") (.field (.path [i!"f"]) i!"comment") <|
    .semi (.meth (.path [i!"fields"]) i!"push" (.cons (.quote [.one (.toks t!"#[doc ="),
      .one (.var i!"field_comment"),
      .one (.toks t!"] pub"),
      .one (.var i!"name"),
      .one (.toks t!":"),
      .one (.var i!"ty")]) .nil)) <|
    .let_ (.name i!"size_bytes") (.match_ (.field (.path [i!"f"]) i!"size_bytes")
      (.cons (.ctor1 [i!"Some"] (.name i!"x")) (.meth (.path [i!"x"]) i!"get" .nil)
      (.cons (.ctor0 [i!"None"]) (.block
        (.semi (.meth (.path [i!"extend_fields"]) i!"push" (.cons (.quote [.one (.toks t!"for f in self."),
          .one (.var i!"name"),
          .one (.toks t!"{ len_bytes += f.extend_to(out); }")]) .nil)) <|
        .semi (.assign i!"builder_needs_lifetime" (.path [i!"true"])) <|
        .semi (.assertEq (.path [i!"fi"]) (.bin .sub (.meth (.field (.path [i!"pack_descr"]) i!"fields") i!"len" .nil) (.num 1 0))) <|
        .semi .break_ <|
        .nil))
      .nil))) <|
    .semi (.ifLet (.ctor1 [i!"Some"] (.name i!"into_fn")) (.methFn (.meth (.field (.field (.path [i!"f"]) i!"map") i!"map_type") i!"as_ref" .nil) i!"map" .nil [i!"x"] (.field (.path [i!"x"]) i!"into_fn"))
      (.semi (.meth (.path [i!"pack_fields"]) i!"push" (.cons (.quote [.one (.toks t!"let bytes ="),
        .one (.var i!"into_fn"),
        .one (.toks t!"(self."),
        .one (.var i!"name"),
        .one (.toks t!").to_le_bytes()")]) .nil)) <|
      .nil)
      (.last (.ite (.not (.meth (.path [i!"f"]) i!"is_field_raw_ty_byte_array" .nil))
        (.semi (.meth (.path [i!"pack_fields"]) i!"push" (.cons (.quote [.one (.toks t!"let bytes = self."),
          .one (.var i!"name"),
          .one (.toks t!".to_le_bytes()")]) .nil)) <|
        .nil)
        (.semi (.meth (.path [i!"pack_fields"]) i!"push" (.cons (.quote [.one (.toks t!"let bytes: &[u8] = &self."),
          .one (.var i!"name"),
          .one (.toks t!";")]) .nil)) <|
        .nil)))) <|
    .semi (.meth (.path [i!"write_fields"]) i!"push" (.cons (.meth (.meth (.meth (.path [i!"pack_fields"]) i!"last" .nil) i!"unwrap" .nil) i!"clone" .nil) .nil)) <|
    .semi (.meth (.path [i!"write_fields"]) i!"push" (.cons (.quote [.one (.toks t!"out.write(&bytes)?; checksum_calc.update(&bytes)")]) .nil)) <|
    .semi (.meth (.path [i!"extend_fields"]) i!"push" (.cons (.meth (.meth (.meth (.path [i!"pack_fields"]) i!"last" .nil) i!"unwrap" .nil) i!"clone" .nil) .nil)) <|
    .semi (.meth (.path [i!"extend_fields"]) i!"push" (.cons (.quote [.one (.toks t!"len_bytes += bytes.len(); for b in bytes.iter() { out.extend(core:: iter:: once(* b)); }")]) .nil)) <|
    .semi (.for_ (.name i!"i") (.range (.num 0 0) (.path [i!"size_bytes"])) generate_send_code_for_packet_loop0) <|
    .semi (.addAssign i!"off" (.path [i!"size_bytes"])) <|
    .nil

/-- `ublox_derive/src/output.rs:302` -/
def generate_send_code_for_packet_body : Sts :=
    .let_ (.name i!"main_name") (.call [i!"Ident", i!"new"] (.cons (.field (.path [i!"pack_descr"]) i!"name") (.cons (.call [i!"Span", i!"call_site"] .nil) .nil))) <|
    .let_ (.name i!"payload_struct") (.formatIdent c!"" c!"Builder" (.field (.path [i!"pack_descr"]) i!"name")) <|
    .let_ (.name i!"builder_needs_lifetime") (.path [i!"false"]) <|
    .let_ (.name i!"fields") (.call [i!"Vec", i!"with_capacity"] (.cons (.meth (.field (.path [i!"pack_descr"]) i!"fields") i!"len" .nil) .nil)) <|
    .let_ (.name i!"pack_fields") (.call [i!"Vec", i!"with_capacity"] (.cons (.meth (.field (.path [i!"pack_descr"]) i!"fields") i!"len" .nil) .nil)) <|
    .let_ (.name i!"write_fields") (.call [i!"Vec", i!"with_capacity"] (.cons (.meth (.field (.path [i!"pack_descr"]) i!"fields") i!"len" .nil) .nil)) <|
    .let_ (.name i!"extend_fields") (.call [i!"Vec", i!"with_capacity"] (.cons (.meth (.field (.path [i!"pack_descr"]) i!"fields") i!"len" .nil) .nil)) <|
    .let_ (.name i!"off") (.num 6 i!"usize") <|
    .semi (.for_ (.pair (.name i!"fi") (.name i!"f")) (.meth (.meth (.field (.path [i!"pack_descr"]) i!"fields") i!"iter" .nil) i!"enumerate" .nil) generate_send_code_for_packet_loop1) <|
    .let_ (.name i!"builder_attr") (.ite (.methFn (.meth (.field (.field (.path [i!"pack_descr"]) i!"header") i!"flags") i!"iter" .nil) i!"any" .nil [i!"x"] (.bin .eq (.path [i!"x"]) (.path [i!"PacketFlag", i!"DefaultForBuilder"])))
      (.last (.quote [.one (.toks t!"#[derive(Default)]")]))
      (.last (.quote []))) <|
    .let_ (.name i!"struct_comment") (.field (.path [i!"pack_descr"]) i!"comment") <|
    .let_ (.name i!"payload_struct_lifetime") (.ite (.path [i!"builder_needs_lifetime"])
      (.last (.quote [.one (.toks t!"< 'a >")]))
      (.last (.quote []))) <|
    .let_ (.name i!"ret") (.quote [.one (.toks t!"#[doc ="),
      .one (.var i!"struct_comment"),
      .one (.toks t!"] #[doc = \"Struct that is used to construct packets, see the crate-level documentation for more information\"]"),
      .one (.var i!"builder_attr"),
      .one (.toks t!"pub struct"),
      .one (.var i!"payload_struct"),
      .one (.var i!"payload_struct_lifetime"),
      .one (.toks t!"{"),
      .rep [.var i!"fields"] t!",",
      .one (.toks t!"}")]) <|
    .semi (.ifLet (.ctor1 [i!"Some"] (.name i!"packet_payload_size")) (.meth (.path [i!"pack_descr"]) i!"packet_payload_size" .nil)
      (.let_ (.name i!"packet_size") (.bin .add (.path [i!"packet_payload_size"]) (.num 8 0)) <|
      .let_ (.name i!"packet_payload_size_u16") (.meth (.call [i!"u16", i!"try_from"] (.cons (.path [i!"packet_payload_size"]) .nil)) i!"unwrap" .nil) <|
      .semi (.meth (.path [i!"ret"]) i!"extend" (.cons (.quote [.one (.toks t!"impl"),
        .one (.var i!"payload_struct_lifetime"),
        .one (.var i!"payload_struct"),
        .one (.var i!"payload_struct_lifetime"),
        .one (.toks t!"{ pub const PACKET_LEN: usize ="),
        .one (.var i!"packet_size"),
        .one (.toks t!"; #[inline] pub fn into_packet_bytes(self) -> [u8; Self:: PACKET_LEN] { let mut ret = [0u8; Self:: PACKET_LEN]; ret[0] = SYNC_CHAR_1; ret[1] = SYNC_CHAR_2; ret[2] ="),
        .one (.var i!"main_name"),
        .one (.toks t!":: CLASS; ret[3] ="),
        .one (.var i!"main_name"),
        .one (.toks t!":: ID; let pack_len_bytes ="),
        .one (.var i!"packet_payload_size_u16"),
        .one (.toks t!".to_le_bytes(); ret[4] = pack_len_bytes[0]; ret[5] = pack_len_bytes[1];"),
        .rep [.var i!"pack_fields"] t!";",
        .one (.toks t!"; let (ck_a, ck_b) = ubx_checksum(&ret[2 .. (Self:: PACKET_LEN - 2)]); ret[Self:: PACKET_LEN - 2] = ck_a; ret[Self:: PACKET_LEN - 1] = ck_b; ret } } impl From <"),
        .one (.var i!"payload_struct"),
        .one (.toks t!"> for [u8;"),
        .one (.var i!"packet_size"),
        .one (.toks t!"] { fn from(x:"),
        .one (.var i!"payload_struct"),
        .one (.toks t!") -> Self { x.into_packet_bytes() } } impl UbxPacketCreator for"),
        .one (.var i!"payload_struct"),
        .one (.toks t!"{ #[inline] fn create_packet < T: MemWriter > (self, out: &mut T) -> Result < (), MemWriterError < T:: Error > > { out.reserve_allocate("),
        .one (.var i!"packet_size"),
        .one (.toks t!")?; let len_bytes ="),
        .one (.var i!"packet_payload_size_u16"),
        .one (.toks t!".to_le_bytes(); let header = [SYNC_CHAR_1, SYNC_CHAR_2,"),
        .one (.var i!"main_name"),
        .one (.toks t!":: CLASS,"),
        .one (.var i!"main_name"),
        .one (.toks t!":: ID, len_bytes[0], len_bytes[1]]; out.write(&header)?; let mut checksum_calc = UbxChecksumCalc:: default(); checksum_calc.update(&header[2 ..]);"),
        .rep [.var i!"write_fields"] t!";",
        .one (.toks t!"; let (ck_a, ck_b) = checksum_calc.result(); out.write(&[ck_a, ck_b])?; Ok(()) } }")]) .nil)) <|
      .nil)
      (.last (.meth (.path [i!"ret"]) i!"extend" (.cons (.quote [.one (.toks t!"impl"),
        .one (.var i!"payload_struct_lifetime"),
        .one (.var i!"payload_struct"),
        .one (.var i!"payload_struct_lifetime"),
        .one (.toks t!"{ #[cfg(feature = \"alloc\")] #[inline] pub fn into_packet_vec(self) -> Vec < u8 > { let mut vec = Vec:: new(); self.extend_to(&mut vec); vec } #[inline] pub fn extend_to < T > (self, out: &mut T) where T: core:: iter:: Extend < u8 > + core:: ops:: DerefMut < Target = [u8] > { let mut len_bytes = 0; let header = [SYNC_CHAR_1, SYNC_CHAR_2,"),
        .one (.var i!"main_name"),
        .one (.toks t!":: CLASS,"),
        .one (.var i!"main_name"),
        .one (.toks t!":: ID, 0, 0]; for b in header.iter() { out.extend(core:: iter:: once(* b)); }"),
        .rep [.var i!"extend_fields"] t!";",
        .one (.toks t!"; let len_bytes = len_bytes.to_le_bytes(); out[4] = len_bytes[0]; out[5] = len_bytes[1]; let (ck_a, ck_b) = ubx_checksum(&out[2 ..]); out.extend(core:: iter:: once(ck_a)); out.extend(core:: iter:: once(ck_b)); } }")]) .nil)))) <|
    .last (.path [i!"ret"])

/-- `ublox_derive/src/output.rs:302` -/
def generate_send_code_for_packet : Fn := ⟨i!"generate_send_code_for_packet", [i!"pack_descr"], generate_send_code_for_packet_body⟩

/-- `ublox_derive/src/output.rs:302-497` -/
def outputRs4 : String := r#"pub fn generate_send_code_for_packet(pack_descr: &PackDesc) -> TokenStream {
    let main_name = Ident::new(&pack_descr.name, Span::call_site());
    let payload_struct = format_ident!("{}Builder", pack_descr.name);

    let mut builder_needs_lifetime = false;

    let mut fields = Vec::with_capacity(pack_descr.fields.len());
    let mut pack_fields = Vec::with_capacity(pack_descr.fields.len());
    let mut write_fields = Vec::with_capacity(pack_descr.fields.len());
    let mut extend_fields = Vec::with_capacity(pack_descr.fields.len());
    let mut off = 6usize;
    for (fi, f) in pack_descr.fields.iter().enumerate() {
        let ty = f.intermediate_type();
        let name = f.intermediate_field_name();
        let field_comment = &f.comment;
        fields.push(quote! {
            #[doc = #field_comment]
            pub #name: #ty
        });

        let size_bytes = match f.size_bytes {
            Some(x) => x.get(),
            None => {
                // Iterator with `data` field.
                extend_fields.push(quote! {
                    for f in self.#name {
                      len_bytes += f.extend_to(out);
                    }
                });

                builder_needs_lifetime = true;

                assert_eq!(
                    fi,
                    pack_descr.fields.len() - 1,
                    "Iterator field must be the last field."
                );
                break;
            },
        };

        if let Some(into_fn) = f.map.map_type.as_ref().map(|x| &x.into_fn) {
            pack_fields.push(quote! {
                let bytes = #into_fn(self.#name).to_le_bytes()
            });
        } else if !f.is_field_raw_ty_byte_array() {
            pack_fields.push(quote! {
              let bytes = self.#name.to_le_bytes()
            });
        } else {
            pack_fields.push(quote! {
              let bytes: &[u8] = &self.#name;
            });
        }

        write_fields.push(pack_fields.last().unwrap().clone());
        write_fields.push(quote! {
            out.write(&bytes)?;
            checksum_calc.update(&bytes)
        });

        extend_fields.push(pack_fields.last().unwrap().clone());
        extend_fields.push(quote! {
            len_bytes += bytes.len();
            // TODO: Extend all at once when we bump MSRV
            //out.extend(bytes.into_iter().cloned());
            for b in bytes.iter() {
                out.extend(core::iter::once(*b));
            }
        });

        for i in 0..size_bytes {
            let byte_off = off.checked_add(i).unwrap();
            pack_fields.push(quote! {
                ret[#byte_off] = bytes[#i]
            });
        }

        off += size_bytes;
    }
    let builder_attr = if pack_descr
        .header
        .flags
        .iter()
        .any(|x| *x == PacketFlag::DefaultForBuilder)
    {
        quote! { #[derive(Default)] }
    } else {
        quote! {}
    };
    let struct_comment = &pack_descr.comment;

    let payload_struct_lifetime = if builder_needs_lifetime {
        quote! { <'a> }
    } else {
        quote! {}
    };

    let mut ret = quote! {
        #[doc = #struct_comment]
        #[doc = "Struct that is used to construct packets, see the crate-level documentation for more information"]
        #builder_attr
        pub struct #payload_struct #payload_struct_lifetime {
            #(#fields),*
        }
    };

    if let Some(packet_payload_size) = pack_descr.packet_payload_size() {
        let packet_size = packet_payload_size + 8;
        let packet_payload_size_u16 = u16::try_from(packet_payload_size).unwrap();
        ret.extend(quote! {
            impl #payload_struct_lifetime #payload_struct #payload_struct_lifetime {
                pub const PACKET_LEN: usize = #packet_size;

                #[inline]
                pub fn into_packet_bytes(self) -> [u8; Self::PACKET_LEN] {
                    let mut ret = [0u8; Self::PACKET_LEN];
                    ret[0] = SYNC_CHAR_1;
                    ret[1] = SYNC_CHAR_2;
                    ret[2] = #main_name::CLASS;
                    ret[3] = #main_name::ID;
                    let pack_len_bytes = #packet_payload_size_u16 .to_le_bytes();
                    ret[4] = pack_len_bytes[0];
                    ret[5] = pack_len_bytes[1];
                    #(#pack_fields);*;
                    let (ck_a, ck_b) = ubx_checksum(&ret[2..(Self::PACKET_LEN - 2)]);
                    ret[Self::PACKET_LEN - 2] = ck_a;
                    ret[Self::PACKET_LEN - 1] = ck_b;
                    ret
                }
            }
            impl From<#payload_struct> for [u8; #packet_size] {
                fn from(x: #payload_struct) -> Self {
                    x.into_packet_bytes()
                }
            }

            impl UbxPacketCreator for #payload_struct {
                #[inline]
                fn create_packet<T: MemWriter>(self, out: &mut T) -> Result<(), MemWriterError<T::Error>> {
                    out.reserve_allocate(#packet_size)?;
                    let len_bytes = #packet_payload_size_u16 .to_le_bytes();
                    let header = [SYNC_CHAR_1, SYNC_CHAR_2, #main_name::CLASS, #main_name::ID, len_bytes[0], len_bytes[1]];
                    out.write(&header)?;
                    let mut checksum_calc = UbxChecksumCalc::default();
                    checksum_calc.update(&header[2..]);
                    #(#write_fields);*;
                    let (ck_a, ck_b) = checksum_calc.result();
                    out.write(&[ck_a, ck_b])?;
                    Ok(())
                }
            }
        });
    } else {
        ret.extend(quote! {
          impl #payload_struct_lifetime #payload_struct #payload_struct_lifetime {
              #[cfg(feature = "alloc")]
              #[inline]
              pub fn into_packet_vec(self) -> Vec<u8> {
                let mut vec = Vec::new();
                self.extend_to(&mut vec);
                vec
              }

              #[inline]
              pub fn extend_to<T>(self, out: &mut T)
              where
                 T: core::iter::Extend<u8> +
                    core::ops::DerefMut<Target = [u8]>
              {
                  // TODO: Enable when `extend_one` feature is stable.
                  // out.extend_reserve(6);
                  let mut len_bytes = 0;
                  let header = [SYNC_CHAR_1, SYNC_CHAR_2, #main_name::CLASS, #main_name::ID, 0, 0];
                  // TODO: Extend all at once when we bump MSRV
                  //out.extend(header);
                  for b in header.iter() {
                      out.extend(core::iter::once(*b));
                  }
                  #(#extend_fields);*;

                  let len_bytes = len_bytes.to_le_bytes();
                  out[4] = len_bytes[0];
                  out[5] = len_bytes[1];

                  let (ck_a, ck_b) = ubx_checksum(&out[2..]);
                  out.extend(core::iter::once(ck_a));
                  out.extend(core::iter::once(ck_b));
              }
          }
        })
    }

    ret
}

"#

/-- `ublox_derive/src/output.rs:498`, the body of a loop in `generate_code_to_extend_enum` -/
def generate_code_to_extend_enum_loop0 : Sts :=
    .semi (.meth (.path [i!"enum_variants"]) i!"push" (.cons (.quote [.one (.var i!"id"),
      .one (.toks t!"="),
      .one (.var i!"val")]) .nil)) <|
    .nil

/-- `ublox_derive/src/output.rs:498`, the body of a loop in `generate_code_to_extend_enum` -/
def generate_code_to_extend_enum_loop1 : Sts :=
    .last (.ite (.bin .ne (.path [i!"i"]) (.num 0 0))
      (.semi (.meth (.path [i!"values"]) i!"push" (.cons (.quote [.one (.toks t!"|"),
        .one (.var i!"val")]) .nil)) <|
      .nil)
      (.semi (.meth (.path [i!"values"]) i!"push" (.cons (.quote [.one (.var i!"val")]) .nil)) <|
      .nil))

/-- `ublox_derive/src/output.rs:498`, the body of a loop in `generate_code_to_extend_enum` -/
def generate_code_to_extend_enum_loop2 : Sts :=
    .semi (.meth (.path [i!"match_branches"]) i!"push" (.cons (.quote [.one (.var i!"val"),
      .one (.toks t!"=>"),
      .one (.var i!"name"),
      .one (.toks t!"::"),
      .one (.var i!"id")]) .nil)) <|
    .nil

/-- `ublox_derive/src/output.rs:498`, the body of a loop in `generate_code_to_extend_enum` -/
def generate_code_to_extend_enum_loop3 : Sts :=
    .semi (.meth (.path [i!"match_branches"]) i!"push" (.cons (.quote [.one (.var i!"val"),
      .one (.toks t!"=>"),
      .one (.var i!"name"),
      .one (.toks t!"::"),
      .one (.var i!"id")]) .nil)) <|
    .nil

/-- `ublox_derive/src/output.rs:498`, the body of a loop in `generate_code_to_extend_enum` -/
def generate_code_to_extend_enum_loop4 : Sts :=
    .last (.ite (.not (.meth (.path [i!"defined"]) i!"contains" (.cons (.path [i!"i"]) .nil)))
      (.let_ (.name i!"name") (.formatIdent c!"Reserved" c!"" (.path [i!"i"])) <|
      .semi (.meth (.path [i!"variants"]) i!"push" (.cons (.call [i!"pair"] (.cons (.path [i!"name"]) (.cons (.path [i!"i"]) .nil))) .nil)) <|
      .nil) .nil)

/-- `ublox_derive/src/output.rs:498` -/
def generate_code_to_extend_enum_body : Sts :=
    .semi (.assertEq (.field (.path [i!"ubx_enum"]) i!"repr") (.block
      (.let_ (.name i!"ty") (.parse t!"u8") <|
      .last (.path [i!"ty"])))) <|
    .let_ (.name i!"name") (.field (.path [i!"ubx_enum"]) i!"name") <|
    .let_ (.name i!"variants") (.meth (.field (.path [i!"ubx_enum"]) i!"variants") i!"clone" .nil) <|
    .let_ (.name i!"attrs") (.field (.path [i!"ubx_enum"]) i!"attrs") <|
    .semi (.ifLet (.ctor1 [i!"Some"] (.ctor0 [i!"UbxEnumRestHandling", i!"Reserved"])) (.field (.path [i!"ubx_enum"]) i!"rest_handling")
      (.let_ (.name i!"defined") (.meth (.methFn (.meth (.field (.path [i!"ubx_enum"]) i!"variants") i!"iter" .nil) i!"map" .nil [i!"x"] (.field (.path [i!"x"]) 49)) i!"collect" .nil) <|
      .last (.for_ (.name i!"i") (.rangeIncl (.num 0 0) (.call [i!"u8", i!"max_value"] .nil)) generate_code_to_extend_enum_loop4)) .nil) <|
    .let_ (.name i!"repr_ty") (.field (.path [i!"ubx_enum"]) i!"repr") <|
    .let_ (.name i!"from_code") (.match_ (.field (.path [i!"ubx_enum"]) i!"from_fn")
      (.cons (.ctor1 [i!"Some"] (.ctor0 [i!"UbxTypeFromFn", i!"From"])) (.block
        (.semi (.assertNe (.call [i!"Some"] (.cons (.path [i!"UbxEnumRestHandling", i!"ErrorProne"]) .nil)) (.field (.path [i!"ubx_enum"]) i!"rest_handling")) <|
        .let_ (.name i!"match_branches") (.call [i!"Vec", i!"with_capacity"] (.cons (.meth (.path [i!"variants"]) i!"len" .nil) .nil)) <|
        .semi (.for_ (.pair (.name i!"id") (.name i!"val")) (.path [i!"variants"]) generate_code_to_extend_enum_loop3) <|
        .last (.quote [.one (.toks t!"impl"),
          .one (.var i!"name"),
          .one (.toks t!"{ fn from(x:"),
          .one (.var i!"repr_ty"),
          .one (.toks t!") -> Self { match x {"),
          .rep [.var i!"match_branches"] t!",",
          .one (.toks t!"} } }")])))
      (.cons (.ctor1 [i!"Some"] (.ctor0 [i!"UbxTypeFromFn", i!"FromUnchecked"])) (.block
        (.semi (.assertNe (.call [i!"Some"] (.cons (.path [i!"UbxEnumRestHandling", i!"Reserved"]) .nil)) (.field (.path [i!"ubx_enum"]) i!"rest_handling")) <|
        .let_ (.name i!"match_branches") (.call [i!"Vec", i!"with_capacity"] (.cons (.meth (.path [i!"variants"]) i!"len" .nil) .nil)) <|
        .semi (.for_ (.pair (.name i!"id") (.name i!"val")) (.path [i!"variants"]) generate_code_to_extend_enum_loop2) <|
        .let_ (.name i!"values") (.call [i!"Vec", i!"with_capacity"] (.cons (.meth (.path [i!"variants"]) i!"len" .nil) .nil)) <|
        .semi (.for_ (.pair (.name i!"i") (.pair .wild (.name i!"val"))) (.meth (.meth (.path [i!"variants"]) i!"iter" .nil) i!"enumerate" .nil) generate_code_to_extend_enum_loop1) <|
        .last (.quote [.one (.toks t!"impl"),
          .one (.var i!"name"),
          .one (.toks t!"{ fn from_unchecked(x:"),
          .one (.var i!"repr_ty"),
          .one (.toks t!") -> Self { match x {"),
          .rep [.var i!"match_branches"] t!",",
          .one (.toks t!", _ => unreachable!(), } } fn is_valid(x:"),
          .one (.var i!"repr_ty"),
          .one (.toks t!") -> bool { match x {"),
          .rep [.var i!"values"] t!"",
          .one (.toks t!"=> true, _ => false, } } }")])))
      (.cons (.ctor0 [i!"None"]) (.quote [])
      .nil)))) <|
    .let_ (.name i!"to_code") (.match_ (.field (.path [i!"ubx_enum"]) i!"into_fn")
      (.cons (.ctor0 [i!"None"]) (.quote [])
      (.cons (.ctor1 [i!"Some"] (.ctor0 [i!"UbxTypeIntoFn", i!"Raw"])) (.quote [.one (.toks t!"impl"),
        .one (.var i!"name"),
        .one (.toks t!"{ const fn into_raw(self) ->"),
        .one (.var i!"repr_ty"),
        .one (.toks t!"{ self as"),
        .one (.var i!"repr_ty"),
        .one (.toks t!"} }")])
      .nil))) <|
    .let_ (.name i!"enum_variants") (.call [i!"Vec", i!"with_capacity"] (.cons (.meth (.path [i!"variants"]) i!"len" .nil) .nil)) <|
    .semi (.for_ (.pair (.name i!"id") (.name i!"val")) (.path [i!"variants"]) generate_code_to_extend_enum_loop0) <|
    .let_ (.name i!"code") (.quote [.rep [.var i!"attrs"] t!"",
      .one (.toks t!"pub enum"),
      .one (.var i!"name"),
      .one (.toks t!"{"),
      .rep [.var i!"enum_variants"] t!",",
      .one (.toks t!"}"),
      .one (.var i!"from_code"),
      .one (.var i!"to_code"),
      .one (.toks t!"#[cfg(feature = \"serde\")] impl serde:: Serialize for"),
      .one (.var i!"name"),
      .one (.toks t!"{ fn serialize < S > (&self, serializer: S) -> Result < S:: Ok, S:: Error > where S: serde:: Serializer, { serializer.serialize_u8(* self as u8) } }")]) <|
    .last (.path [i!"code"])

/-- `ublox_derive/src/output.rs:498` -/
def generate_code_to_extend_enum : Fn := ⟨i!"generate_code_to_extend_enum", [i!"ubx_enum"], generate_code_to_extend_enum_body⟩

/-- `ublox_derive/src/output.rs:498-610` -/
def outputRs5 : String := r#"pub fn generate_code_to_extend_enum(ubx_enum: &UbxExtendEnum) -> TokenStream {
    assert_eq!(ubx_enum.repr, {
        let ty: Type = parse_quote! { u8 };
        ty
    });
    let name = &ubx_enum.name;
    let mut variants = ubx_enum.variants.clone();
    let attrs = &ubx_enum.attrs;
    if let Some(UbxEnumRestHandling::Reserved) = ubx_enum.rest_handling {
        let defined: HashSet<u8> = ubx_enum.variants.iter().map(|x| x.1).collect();
        for i in 0..=u8::max_value() {
            if !defined.contains(&i) {
                let name = format_ident!("Reserved{}", i);
                variants.push((name, i));
            }
        }
    }
    let repr_ty = &ubx_enum.repr;
    let from_code = match ubx_enum.from_fn {
        Some(UbxTypeFromFn::From) => {
            assert_ne!(
                Some(UbxEnumRestHandling::ErrorProne),
                ubx_enum.rest_handling
            );
            let mut match_branches = Vec::with_capacity(variants.len());
            for (id, val) in &variants {
                match_branches.push(quote! { #val => #name :: #id });
            }

            quote! {
                impl #name {
                    fn from(x: #repr_ty) -> Self {
                        match x {
                            #(#match_branches),*
                        }
                    }
                }
            }
        },
        Some(UbxTypeFromFn::FromUnchecked) => {
            assert_ne!(Some(UbxEnumRestHandling::Reserved), ubx_enum.rest_handling);
            let mut match_branches = Vec::with_capacity(variants.len());
            for (id, val) in &variants {
                match_branches.push(quote! { #val => #name :: #id });
            }

            let mut values = Vec::with_capacity(variants.len());
            for (i, (_, val)) in variants.iter().enumerate() {
                if i != 0 {
                    values.push(quote! { | #val });
                } else {
                    values.push(quote! { #val });
                }
            }

            quote! {
                impl #name {
                    fn from_unchecked(x: #repr_ty) -> Self {
                        match x {
                            #(#match_branches),*,
                            _ => unreachable!(),
                        }
                    }
                    fn is_valid(x: #repr_ty) -> bool {
                        match x {
                            #(#values)* => true,
                            _ => false,
                        }
                    }
                }
            }
        },
        None => quote! {},
    };

    let to_code = match ubx_enum.into_fn {
        None => quote! {},
        Some(UbxTypeIntoFn::Raw) => quote! {
            impl #name {
                const fn into_raw(self) -> #repr_ty {
                    self as #repr_ty
                }
            }
        },
    };

    let mut enum_variants = Vec::with_capacity(variants.len());
    for (id, val) in &variants {
        enum_variants.push(quote! { #id = #val });
    }

    let code = quote! {
        #(#attrs)*
        pub enum #name {
            #(#enum_variants),*
        }

        #from_code
        #to_code

        #[cfg(feature = "serde")]
        impl serde::Serialize for #name {
            fn serialize<S>(&self, serializer: S) -> Result<S::Ok, S::Error>
            where
                S: serde::Serializer,
            {
                serializer.serialize_u8(*self as u8)
            }
        }
    };
    code
}

"#

/-- `ublox_derive/src/output.rs:611`, the body of a loop in `generate_code_to_extend_bitflags` -/
def generate_code_to_extend_bitflags_loop0 : Sts :=
    .let_ (.name i!"flag_bit") (.meth (.meth (.num 1 i!"u64") i!"checked_shl" (.cons (.path [i!"bit"]) .nil)) i!"unwrap" .nil) <|
    .last (.ifLet (.ctor1 [i!"Some"] (.name i!"item")) (.methFn (.meth (.field (.path [i!"bitflags"]) i!"consts") i!"iter" .nil) i!"find" .nil [i!"x"] (.bin .eq (.field (.path [i!"x"]) i!"value") (.path [i!"flag_bit"])))
      (.semi (.meth (.path [i!"known_flags"]) i!"insert" (.cons (.path [i!"flag_bit"]) .nil)) <|
      .let_ (.name i!"name") (.field (.path [i!"item"]) i!"name") <|
      .let_ (.name i!"attrs") (.field (.path [i!"item"]) i!"attrs") <|
      .last (.ite (.bin .ne (.path [i!"bit"]) (.num 0 0))
        (.semi (.meth (.path [i!"items"]) i!"push" (.cons (.quote [.rep [.var i!"attrs"] t!"",
          .one (.toks t!"const"),
          .one (.var i!"name"),
          .one (.toks t!"= ((1 as"),
          .one (.var i!"repr_ty"),
          .one (.toks t!") <<"),
          .one (.var i!"bit"),
          .one (.toks t!")")]) .nil)) <|
        .nil)
        (.semi (.meth (.path [i!"items"]) i!"push" (.cons (.quote [.rep [.var i!"attrs"] t!"",
          .one (.toks t!"const"),
          .one (.var i!"name"),
          .one (.toks t!"= (1 as"),
          .one (.var i!"repr_ty"),
          .one (.toks t!")")]) .nil)) <|
        .nil)))
      (.let_ (.name i!"name") (.formatIdent c!"RESERVED" c!"" (.path [i!"bit"])) <|
      .last (.ite (.bin .ne (.path [i!"bit"]) (.num 0 0))
        (.semi (.meth (.path [i!"items"]) i!"push" (.cons (.quote [.one (.toks t!"const"),
          .one (.var i!"name"),
          .one (.toks t!"= ((1 as"),
          .one (.var i!"repr_ty"),
          .one (.toks t!") <<"),
          .one (.var i!"bit"),
          .one (.toks t!")")]) .nil)) <|
        .nil)
        (.semi (.meth (.path [i!"items"]) i!"push" (.cons (.quote [.one (.toks t!"const"),
          .one (.var i!"name"),
          .one (.toks t!"= (1 as"),
          .one (.var i!"repr_ty"),
          .one (.toks t!")")]) .nil)) <|
        .nil))))

/-- `ublox_derive/src/output.rs:611` -/
def generate_code_to_extend_bitflags_body : Sts :=
    .semi (.match_ (.field (.path [i!"bitflags"]) i!"rest_handling")
      (.cons (.or (.ctor1 [i!"Some"] (.ctor0 [i!"UbxEnumRestHandling", i!"ErrorProne"])) (.ctor0 [i!"None"])) (.block
        (.last (.return_ (.call [i!"Err"] (.cons (.call [i!"syn", i!"Error", i!"new"] (.cons (.meth (.field (.path [i!"bitflags"]) i!"name") i!"span" .nil) (.cons (.str c!"Only reserved supported") .nil))) .nil)))))
      (.cons (.ctor1 [i!"Some"] (.ctor0 [i!"UbxEnumRestHandling", i!"Reserved"])) (.block .nil)
      .nil))) <|
    .let_ (.name i!"known_flags") (.call [i!"HashSet", i!"new"] .nil) <|
    .let_ (.name i!"items") (.call [i!"Vec", i!"with_capacity"] (.cons (.meth (.call [i!"usize", i!"try_from"] (.cons (.field (.path [i!"bitflags"]) i!"nbits") .nil)) i!"unwrap" .nil) .nil)) <|
    .let_ (.name i!"repr_ty") (.field (.path [i!"bitflags"]) i!"repr_ty") <|
    .semi (.for_ (.name i!"bit") (.range (.num 0 0) (.field (.path [i!"bitflags"]) i!"nbits")) generate_code_to_extend_bitflags_loop0) <|
    .semi (.ite (.bin .ne (.meth (.path [i!"known_flags"]) i!"len" .nil) (.meth (.field (.path [i!"bitflags"]) i!"consts") i!"len" .nil))
      (.let_ (.name i!"user_flags") (.meth (.methFn (.meth (.field (.path [i!"bitflags"]) i!"consts") i!"iter" .nil) i!"map" .nil [i!"x"] (.field (.path [i!"x"]) i!"value")) i!"collect" .nil) <|
      .let_ (.name i!"set") (.meth (.path [i!"user_flags"]) i!"difference" (.cons (.path [i!"known_flags"]) .nil)) <|
      .semi (.return_ (.call [i!"Err"] (.cons (.call [i!"syn", i!"Error", i!"new"] (.cons (.meth (.field (.path [i!"bitflags"]) i!"name") i!"span" .nil) (.cons .format .nil))) .nil))) <|
      .nil) .nil) <|
    .let_ (.name i!"vis") (.field (.path [i!"bitflags"]) i!"vis") <|
    .let_ (.name i!"attrs") (.field (.path [i!"bitflags"]) i!"attrs") <|
    .let_ (.name i!"name") (.field (.path [i!"bitflags"]) i!"name") <|
    .let_ (.name i!"from") (.match_ (.field (.path [i!"bitflags"]) i!"from_fn")
      (.cons (.ctor0 [i!"None"]) (.quote [])
      (.cons (.ctor1 [i!"Some"] (.ctor0 [i!"UbxTypeFromFn", i!"From"])) (.quote [.one (.toks t!"impl"),
        .one (.var i!"name"),
        .one (.toks t!"{ const fn from(x:"),
        .one (.var i!"repr_ty"),
        .one (.toks t!") -> Self { Self:: from_bits_truncate(x) } }")])
      (.cons (.ctor1 [i!"Some"] (.ctor0 [i!"UbxTypeFromFn", i!"FromUnchecked"])) .unimplemented
      .nil)))) <|
    .let_ (.name i!"into") (.match_ (.field (.path [i!"bitflags"]) i!"into_fn")
      (.cons (.ctor0 [i!"None"]) (.quote [])
      (.cons (.ctor1 [i!"Some"] (.ctor0 [i!"UbxTypeIntoFn", i!"Raw"])) (.quote [.one (.toks t!"impl"),
        .one (.var i!"name"),
        .one (.toks t!"{ const fn into_raw(self) ->"),
        .one (.var i!"repr_ty"),
        .one (.toks t!"{ self.bits() } }")])
      .nil))) <|
    .let_ (.name i!"serialize_fn") (.formatIdent c!"serialize_" c!"" (.meth (.meth (.path [i!"repr_ty"]) i!"to_token_stream" .nil) i!"to_string" .nil)) <|
    .let_ (.name i!"serde") (.quote [.one (.toks t!"#[cfg(feature = \"serde\")] impl serde:: Serialize for"),
      .one (.var i!"name"),
      .one (.toks t!"{ fn serialize < S > (&self, serializer: S) -> Result < S:: Ok, S:: Error > where S: serde:: Serializer, { serializer."),
      .one (.var i!"serialize_fn"),
      .one (.toks t!"(self.bits()) } }")]) <|
    .last (.call [i!"Ok"] (.cons (.quote [.one (.toks t!"bitflags! {"),
      .rep [.var i!"attrs"] t!"",
      .one (.var i!"vis"),
      .one (.toks t!"struct"),
      .one (.var i!"name"),
      .one (.toks t!":"),
      .one (.var i!"repr_ty"),
      .one (.toks t!"{"),
      .rep [.var i!"items"] t!";",
      .one (.toks t!"; } }"),
      .one (.var i!"from"),
      .one (.var i!"into"),
      .one (.var i!"serde")]) .nil))

/-- `ublox_derive/src/output.rs:611` -/
def generate_code_to_extend_bitflags : Fn := ⟨i!"generate_code_to_extend_bitflags", [i!"bitflags"], generate_code_to_extend_bitflags_body⟩

/-- `ublox_derive/src/output.rs:611-714` -/
def outputRs6 : String := r#"pub fn generate_code_to_extend_bitflags(bitflags: BitFlagsMacro) -> syn::Result<TokenStream> {
    match bitflags.rest_handling {
        Some(UbxEnumRestHandling::ErrorProne) | None => {
            return Err(syn::Error::new(
                bitflags.name.span(),
                "Only reserved supported",
            ))
        },
        Some(UbxEnumRestHandling::Reserved) => (),
    }

    let mut known_flags = HashSet::new();
    let mut items = Vec::with_capacity(usize::try_from(bitflags.nbits).unwrap());
    let repr_ty = &bitflags.repr_ty;

    for bit in 0..bitflags.nbits {
        let flag_bit = 1u64.checked_shl(bit).unwrap();
        if let Some(item) = bitflags.consts.iter().find(|x| x.value == flag_bit) {
            known_flags.insert(flag_bit);
            let name = &item.name;
            let attrs = &item.attrs;
            if bit != 0 {
                items.push(quote! {
                    #(#attrs)*
                    const #name  = ((1 as #repr_ty) << #bit)
                });
            } else {
                items.push(quote! {
                    #(#attrs)*
                    const #name  = (1 as #repr_ty)
                });
            }
        } else {
            let name = format_ident!("RESERVED{}", bit);
            if bit != 0 {
                items.push(quote! { const #name = ((1 as #repr_ty) << #bit)});
            } else {
                items.push(quote! { const #name = (1 as #repr_ty) });
            }
        }
    }

    if known_flags.len() != bitflags.consts.len() {
        let user_flags: HashSet<_> = bitflags.consts.iter().map(|x| x.value).collect();
        let set = user_flags.difference(&known_flags);
        return Err(syn::Error::new(
            bitflags.name.span(),
            format!("Strange flags, not power of 2?: {:?}", set),
        ));
    }

    let vis = &bitflags.vis;
    let attrs = &bitflags.attrs;
    let name = &bitflags.name;

    let from = match bitflags.from_fn {
        None => quote! {},
        Some(UbxTypeFromFn::From) => quote! {
            impl #name {
                const fn from(x: #repr_ty) -> Self {
                    Self::from_bits_truncate(x)
                }
            }
        },
        Some(UbxTypeFromFn::FromUnchecked) => unimplemented!(),
    };

    let into = match bitflags.into_fn {
        None => quote! {},
        Some(UbxTypeIntoFn::Raw) => quote! {
            impl #name {
                const fn into_raw(self) -> #repr_ty {
                    self.bits()
                }
            }
        },
    };

    let serialize_fn = format_ident!("serialize_{}", repr_ty.to_token_stream().to_string());
    let serde = quote! {
        #[cfg(feature = "serde")]
        impl serde::Serialize for #name {
            fn serialize<S>(&self, serializer: S) -> Result<S::Ok, S::Error>
            where
                S: serde::Serializer,
            {
                serializer.#serialize_fn(self.bits())
            }
        }
    };

    Ok(quote! {
        bitflags! {
            #(#attrs)*
            #vis struct #name : #repr_ty {
                #(#items);*;
            }
        }
        #from
        #into
        #serde
    })
}

"#

/-- `ublox_derive/src/output.rs:715`, the body of a loop in `generate_code_for_parse` -/
def generate_code_for_parse_loop0 : Sts :=
    .let_ (.name i!"ref_name") (.formatIdent c!"" c!"Ref" (.path [i!"name"])) <|
    .semi (.meth (.path [i!"pack_enum_variants"]) i!"push" (.cons (.quote [.one (.var i!"name"),
      .one (.toks t!"("),
      .one (.var i!"ref_name"),
      .one (.toks t!"< 'a >)")]) .nil)) <|
    .semi (.meth (.path [i!"matches"]) i!"push" (.cons (.quote [.one (.toks t!"("),
      .one (.var i!"name"),
      .one (.toks t!":: CLASS,"),
      .one (.var i!"name"),
      .one (.toks t!":: ID) if <"),
      .one (.var i!"ref_name"),
      .one (.toks t!"> :: validate(payload).is_ok() => { Ok("),
      .one (.var i!"union_enum_name"),
      .one (.toks t!"::"),
      .one (.var i!"name"),
      .one (.toks t!"("),
      .one (.var i!"ref_name"),
      .one (.toks t!"(payload))) }")]) .nil)) <|
    .semi (.meth (.path [i!"class_id_matches"]) i!"push" (.cons (.quote [.one (.var i!"union_enum_name"),
      .one (.toks t!"::"),
      .one (.var i!"name"),
      .one (.toks t!"(_) => ("),
      .one (.var i!"name"),
      .one (.toks t!":: CLASS,"),
      .one (.var i!"name"),
      .one (.toks t!":: ID)")]) .nil)) <|
    .semi (.meth (.path [i!"serializers"]) i!"push" (.cons (.quote [.one (.var i!"union_enum_name"),
      .one (.toks t!"::"),
      .one (.var i!"name"),
      .one (.toks t!"(ref msg) => crate:: ubx_packets:: PacketSerializer { class:"),
      .one (.var i!"name"),
      .one (.toks t!":: CLASS, msg_id:"),
      .one (.var i!"name"),
      .one (.toks t!":: ID, msg, } .serialize(serializer)")]) .nil)) <|
    .nil

/-- `ublox_derive/src/output.rs:715` -/
def generate_code_for_parse_body : Sts :=
    .let_ (.name i!"union_enum_name") (.field (.path [i!"recv_packs"]) i!"union_enum_name") <|
    .let_ (.name i!"pack_enum_variants") (.call [i!"Vec", i!"with_capacity"] (.cons (.meth (.field (.path [i!"recv_packs"]) i!"all_packets") i!"len" .nil) .nil)) <|
    .let_ (.name i!"matches") (.call [i!"Vec", i!"with_capacity"] (.cons (.meth (.field (.path [i!"recv_packs"]) i!"all_packets") i!"len" .nil) .nil)) <|
    .let_ (.name i!"class_id_matches") (.call [i!"Vec", i!"with_capacity"] (.cons (.meth (.field (.path [i!"recv_packs"]) i!"all_packets") i!"len" .nil) .nil)) <|
    .let_ (.name i!"serializers") (.call [i!"Vec", i!"with_capacity"] (.cons (.meth (.field (.path [i!"recv_packs"]) i!"all_packets") i!"len" .nil) .nil)) <|
    .semi (.for_ (.name i!"name") (.field (.path [i!"recv_packs"]) i!"all_packets") generate_code_for_parse_loop0) <|
    .let_ (.name i!"unknown_var") (.field (.path [i!"recv_packs"]) i!"unknown_ty") <|
    .let_ (.name i!"max_payload_len_calc") (.methFn (.meth (.field (.path [i!"recv_packs"]) i!"all_packets") i!"iter" .nil) i!"fold" (.cons (.quote [.one (.toks t!"0u16")]) .nil) [i!"prev", i!"name"] (.block
      (.last (.quote [.one (.toks t!"max_u16("),
        .one (.var i!"name"),
        .one (.toks t!":: MAX_PAYLOAD_LEN,"),
        .one (.var i!"prev"),
        .one (.toks t!")")])))) <|
    .last (.quote [.one (.toks t!"#[doc = \"All possible packets enum\"] #[derive(Debug)] pub enum"),
      .one (.var i!"union_enum_name"),
      .one (.toks t!"< 'a > {"),
      .rep [.var i!"pack_enum_variants"] t!",",
      .one (.toks t!", Unknown("),
      .one (.var i!"unknown_var"),
      .one (.toks t!"< 'a >) } impl < 'a >"),
      .one (.var i!"union_enum_name"),
      .one (.toks t!"< 'a > { pub fn class_and_msg_id(&self) -> (u8, u8) { match * self {"),
      .rep [.var i!"class_id_matches"] t!",",
      .one (.toks t!","),
      .one (.var i!"union_enum_name"),
      .one (.toks t!":: Unknown(ref pack) => (pack.class, pack.msg_id), } } } pub (crate) fn match_packet(class: u8, msg_id: u8, payload: &[u8]) -> Result <"),
      .one (.var i!"union_enum_name"),
      .one (.toks t!", ParserError > { match (class, msg_id) {"),
      .rep [.var i!"matches"] t!"",
      .one (.toks t!"_ => Ok("),
      .one (.var i!"union_enum_name"),
      .one (.toks t!":: Unknown("),
      .one (.var i!"unknown_var"),
      .one (.toks t!"{ payload, class, msg_id })), } } const fn max_u16(a: u16, b: u16) -> u16 { [a, b] [(a < b) as usize] } pub (crate) const MAX_PAYLOAD_LEN: u16 ="),
      .one (.var i!"max_payload_len_calc"),
      .one (.toks t!"; #[cfg(feature = \"serde\")] pub struct PacketSerializer < 'a, T > { class: u8, msg_id: u8, msg: &'a T, } #[cfg(feature = \"serde\")] impl < 'a, T: SerializeUbxPacketFields > serde:: Serialize for PacketSerializer < 'a, T > { fn serialize < S > (&self, serializer: S) -> Result < S:: Ok, S:: Error > where S: serde:: Serializer, { let mut state = serializer.serialize_map(None)?; state.serialize_entry(\"class\", &self.class)?; state.serialize_entry(\"msg_id\", &self.msg_id)?; self.msg.serialize_fields(&mut state)?; state.end() } } #[cfg(feature = \"serde\")] impl serde:: Serialize for"),
      .one (.var i!"union_enum_name"),
      .one (.toks t!"< 'a > { fn serialize < S > (&self, serializer: S) -> Result < S:: Ok, S:: Error > where S: serde:: Serializer, { match * self {"),
      .rep [.var i!"serializers"] t!",",
      .one (.toks t!","),
      .one (.var i!"union_enum_name"),
      .one (.toks t!":: Unknown(ref pack) => pack.serialize(serializer), } } }")])

/-- `ublox_derive/src/output.rs:715` -/
def generate_code_for_parse : Fn := ⟨i!"generate_code_for_parse", [i!"recv_packs"], generate_code_for_parse_body⟩

/-- `ublox_derive/src/output.rs:715-825` -/
def outputRs7 : String := r#"pub fn generate_code_for_parse(recv_packs: &RecvPackets) -> TokenStream {
    let union_enum_name = &recv_packs.union_enum_name;

    let mut pack_enum_variants = Vec::with_capacity(recv_packs.all_packets.len());
    let mut matches = Vec::with_capacity(recv_packs.all_packets.len());
    let mut class_id_matches = Vec::with_capacity(recv_packs.all_packets.len());
    let mut serializers = Vec::with_capacity(recv_packs.all_packets.len());

    for name in &recv_packs.all_packets {
        let ref_name = format_ident!("{}Ref", name);
        pack_enum_variants.push(quote! {
            #name(#ref_name <'a>)
        });

        matches.push(quote! {
            (#name::CLASS, #name::ID) if <#ref_name>::validate(payload).is_ok()  => {
                Ok(#union_enum_name::#name(#ref_name(payload)))
            }
        });

        class_id_matches.push(quote! {
            #union_enum_name::#name(_) => (#name::CLASS, #name::ID)
        });

        serializers.push(quote! {
            #union_enum_name::#name(ref msg) => crate::ubx_packets::PacketSerializer {
                class: #name::CLASS,
                msg_id: #name::ID,
                msg,
            }
            .serialize(serializer)
        });
    }

    let unknown_var = &recv_packs.unknown_ty;

    let max_payload_len_calc = recv_packs
        .all_packets
        .iter()
        .fold(quote! { 0u16 }, |prev, name| {
            quote! { max_u16(#name::MAX_PAYLOAD_LEN, #prev) }
        });

    quote! {
        #[doc = "All possible packets enum"]
        #[derive(Debug)]
        pub enum #union_enum_name<'a> {
            #(#pack_enum_variants),*,
            Unknown(#unknown_var<'a>)
        }

        impl<'a> #union_enum_name<'a> {
            pub fn class_and_msg_id(&self) -> (u8, u8) {
                match *self {
                    #(#class_id_matches),*,
                    #union_enum_name::Unknown(ref pack) => (pack.class, pack.msg_id),
                }
            }
        }

        pub(crate) fn match_packet(class: u8, msg_id: u8, payload: &[u8]) -> Result<#union_enum_name, ParserError> {
            match (class, msg_id) {
                #(#matches)*
                _ => Ok(#union_enum_name::Unknown(#unknown_var {
                    payload,
                    class,
                    msg_id
                })),
            }
        }

        const fn max_u16(a: u16, b: u16) -> u16 {
            [a, b][(a < b) as usize]
        }
        pub(crate) const MAX_PAYLOAD_LEN: u16 = #max_payload_len_calc;
        #[cfg(feature = "serde")]
        pub struct PacketSerializer<'a, T> {
            class: u8,
            msg_id: u8,
            msg: &'a T,
        }

        #[cfg(feature = "serde")]
        impl<'a, T: SerializeUbxPacketFields> serde::Serialize for PacketSerializer<'a, T> {
            fn serialize<S>(&self, serializer: S) -> Result<S::Ok, S::Error>
            where
                S: serde::Serializer,
            {
                let mut state = serializer.serialize_map(None)?;
                state.serialize_entry("class", &self.class)?;
                state.serialize_entry("msg_id", &self.msg_id)?;
                self.msg.serialize_fields(&mut state)?;
                state.end()
            }
        }

        #[cfg(feature = "serde")]
        impl serde::Serialize for #union_enum_name<'_> {
            fn serialize<S>(&self, serializer: S) -> Result<S::Ok, S::Error>
            where
                S: serde::Serializer,
            {
                match *self {
                    #(#serializers),*,
                    #union_enum_name::Unknown(ref pack) => pack.serialize(serializer),
                }
            }
        }
    }
}

"#

/-- `ublox_derive/src/output.rs:826`, the body of a loop in `get_raw_field_code` -/
def get_raw_field_code_loop0 : Sts :=
    .let_ (.name i!"byte_off") (.meth (.meth (.path [i!"cur_off"]) i!"checked_add" (.cons (.path [i!"i"]) .nil)) i!"unwrap" .nil) <|
    .semi (.meth (.path [i!"bytes"]) i!"push" (.cons (.quote [.one (.var i!"data"),
      .one (.toks t!"["),
      .one (.var i!"byte_off"),
      .one (.toks t!"]")]) .nil)) <|
    .nil

/-- `ublox_derive/src/output.rs:826` -/
def get_raw_field_code_body : Sts :=
    .let_ (.name i!"size_bytes") (.match_ (.field (.path [i!"field"]) i!"size_bytes")
      (.cons (.ctor1 [i!"Some"] (.name i!"x")) (.path [i!"x"])
      (.cons (.ctor0 [i!"None"]) .unimplemented
      .nil))) <|
    .let_ (.name i!"bytes") (.call [i!"Vec", i!"with_capacity"] (.cons (.meth (.path [i!"size_bytes"]) i!"get" .nil) .nil)) <|
    .semi (.for_ (.name i!"i") (.range (.num 0 0) (.meth (.path [i!"size_bytes"]) i!"get" .nil)) get_raw_field_code_loop0) <|
    .let_ (.name i!"raw_ty") (.field (.path [i!"field"]) i!"ty") <|
    .let_ (.name i!"signed_byte") (.parse t!"i8") <|
    .last (.ite (.field (.field (.path [i!"field"]) i!"map") i!"get_as_ref")
      (.let_ (.name i!"size_bytes") (.meth (.path [i!"size_bytes"]) i!"into" .nil) <|
      .last (.quote [.one (.toks t!"&"),
        .one (.var i!"data"),
        .one (.toks t!"["),
        .one (.var i!"cur_off"),
        .one (.toks t!".. ("),
        .one (.var i!"cur_off"),
        .one (.toks t!"+"),
        .one (.var i!"size_bytes"),
        .one (.toks t!")]")]))
      (.last (.ite (.meth (.path [i!"field"]) i!"is_field_raw_ty_byte_array" .nil)
        (.last (.quote [.one (.toks t!"["),
          .rep [.var i!"bytes"] t!",",
          .one (.toks t!"]")]))
        (.last (.ite (.bin .or (.bin .ne (.meth (.path [i!"size_bytes"]) i!"get" .nil) (.num 1 0)) (.bin .eq (.path [i!"raw_ty"]) (.path [i!"signed_byte"])))
          (.last (.quote [.one (.toks t!"<"),
            .one (.var i!"raw_ty"),
            .one (.toks t!"> :: from_le_bytes(["),
            .rep [.var i!"bytes"] t!",",
            .one (.toks t!"])")]))
          (.last (.quote [.one (.var i!"data"),
            .one (.toks t!"["),
            .one (.var i!"cur_off"),
            .one (.toks t!"]")])))))))

/-- `ublox_derive/src/output.rs:826` -/
def get_raw_field_code : Fn := ⟨i!"get_raw_field_code", [i!"field", i!"cur_off", i!"data"], get_raw_field_code_body⟩

/-- `ublox_derive/src/output.rs:826-852` -/
def outputRs8 : String := r#"fn get_raw_field_code(field: &PackField, cur_off: usize, data: TokenStream) -> TokenStream {
    let size_bytes = match field.size_bytes {
        Some(x) => x,
        None => unimplemented!(),
    };

    let mut bytes = Vec::with_capacity(size_bytes.get());
    for i in 0..size_bytes.get() {
        let byte_off = cur_off.checked_add(i).unwrap();
        bytes.push(quote! { #data[#byte_off] });
    }
    let raw_ty = &field.ty;

    let signed_byte: Type = parse_quote! { i8 };

    if field.map.get_as_ref {
        let size_bytes: usize = size_bytes.into();
        quote! { &#data[#cur_off .. (#cur_off + #size_bytes)] }
    } else if field.is_field_raw_ty_byte_array() {
        quote! { [#(#bytes),*] }
    } else if size_bytes.get() != 1 || *raw_ty == signed_byte {
        quote! { <#raw_ty>::from_le_bytes([#(#bytes),*]) }
    } else {
        quote! { #data[#cur_off] }
    }
}
"#

/-- `ublox_derive/src/output.rs`, in pieces. -/
def outputRs : List String :=
  [outputRs0, outputRs1, outputRs2, outputRs3, outputRs4, outputRs5, outputRs6, outputRs7, outputRs8]

/-- `ublox_derive/src/output.rs`, all functions -/
def outputRs_fns : List Fn :=
  [generate_debug_impl, generate_serialize_impl, generate_recv_code_for_packet, generate_types_for_packet, generate_send_code_for_packet, generate_code_to_extend_enum, generate_code_to_extend_bitflags, generate_code_for_parse, get_raw_field_code]

end Ublox.Gen
