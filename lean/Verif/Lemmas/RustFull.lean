import Verif.Spec.RustFull

/-!
# The switches of `Spec/RustFull.lean`
-/

namespace Venial.Rust.Full

/-- Nothing at all. -/
def Empty : Lang := fun _ => False

theorem if_false (A : Lang) : If false A = Empty := by funext ts; simp [If, Empty]
theorem if_true (A : Lang) : If true A = A := by funext ts; simp [If]
theorem alt_empty (A : Lang) : (A ∣∣ Empty) = A := by funext ts; simp [Alt, Empty]
theorem empty_alt (A : Lang) : (Empty ∣∣ A) = A := by funext ts; simp [Alt, Empty]
theorem nil_seq (A : Lang) : (Nil ⬝ A) = A := by
  funext ts
  exact propext ⟨fun ⟨_, _, e, h1, h2⟩ => by cases h1; cases e; exact h2, fun h => ⟨[], ts, rfl, rfl, h⟩⟩

/-! ## More switches, more items -/

/-- All of `F` are in `G`. -/
def Le (F G : Features) : Prop := ∀ f, F f = true → G f = true

theorem If.mono {a b : Bool} {A B : Lang} (h : a = true → b = true) (hA : ∀ ts, A ts → B ts) : ∀ ts, If a A ts → If b B ts :=
  fun _ ⟨h1, h2⟩ => ⟨h h1, hA _ h2⟩
theorem Alt.mono {A B A' B' : Lang} (h1 : ∀ ts, A ts → A' ts) (h2 : ∀ ts, B ts → B' ts) : ∀ ts, (A ∣∣ B) ts → (A' ∣∣ B') ts :=
  fun _ => Or.imp (h1 _) (h2 _)
theorem Seq.mono {A B A' B' : Lang} (h1 : ∀ ts, A ts → A' ts) (h2 : ∀ ts, B ts → B' ts) : ∀ ts, (A ⬝ B) ts → (A' ⬝ B') ts :=
  fun _ ⟨a, b, e, x, y⟩ => ⟨a, b, e, h1 _ x, h2 _ y⟩
theorem Opt.mono {A A' : Lang} (h : ∀ ts, A ts → A' ts) : ∀ ts, Opt A ts → Opt A' ts := Alt.mono (fun _ h => h) h
theorem In.mono {d : Delim} {A A' : Lang} (h : ∀ ts, A ts → A' ts) : ∀ ts, In d A ts → In d A' ts :=
  fun _ ⟨s, sp, e, x⟩ => ⟨s, sp, e, h _ x⟩
theorem Commas.mono {A A' : Lang} (h : ∀ ts, A ts → A' ts) : ∀ ts, Commas A ts → Commas A' ts := by
  intro ts hs
  induction hs with
  | nil => exact .nil
  | last ha => exact .last (h _ ha)
  | cons ha hc _ ih => exact .cons (h _ ha) hc ih
theorem Many.mono {A A' : Lang} (h : ∀ ts, A ts → A' ts) : ∀ ts, Many A ts → Many A' ts := by
  intro ts hs
  induction hs with
  | nil => exact .nil
  | cons ha _ ih => exact .cons (h _ ha) ih
theorem id_mono {A : Lang} : ∀ ts, A ts → A ts := fun _ h => h

/-- All that may be written in `o` may be written in `o'`. -/
def LeOut (o o' : Outside) : Prop := (o.braces = true → o'.braces = true) ∧ (o.arrows = true → o'.arrows = true)

mutual
theorem ty_mono {o o' : Outside} (h : LeOut o o') : ∀ {ts}, Ty o ts → Ty o' ts
  | _, .group h1 => .group h1
  | _, .never h1 => .never h1
  | _, .path h1 => .path (typePath_mono h h1)
  | _, .qualified h1 h2 h3 h4 h5 h6 => .qualified h1 h2 h3 h4 h5 (segments_mono h h6)
  | _, .pointer h1 h2 h3 => .pointer h1 h2 (ty_mono h h3)
  | _, .reference h1 h2 h3 h4 => .reference h1 h2 h3 (ty_mono h h4)
  | _, .function h1 h2 h3 h4 h5 => .function h1 h2 h3 h4 (return_mono h h5)
  | _, .macro h1 h2 h3 h4 => .macro h1 h2 h3 fun e => h.1 (h4 e)
  | _, .bounds h1 h2 => .bounds h1 (bounds_mono h h2)
theorem return_mono {o o' : Outside} (h : LeOut o o') : ∀ {ts}, ReturnTy o ts → ReturnTy o' ts
  | _, .none => .none
  | _, .some h1 h2 h3 h4 => .some (h.2 h1) h2 h3 (ty_mono h h4)
theorem typePath_mono {o o' : Outside} (h : LeOut o o') : ∀ {ts}, TypePath o ts → TypePath o' ts
  | _, .local h1 => .local (segments_mono h h1)
  | _, .global h1 h2 => .global h1 (segments_mono h h2)
theorem segments_mono {o o' : Outside} (h : LeOut o o') : ∀ {ts}, Segments o ts → Segments o' ts
  | _, .one h1 => .one (segment_mono h h1)
  | _, .cons h1 h2 h3 => .cons (segment_mono h h1) h2 (segments_mono h h3)
theorem segment_mono {o o' : Outside} (h : LeOut o o') : ∀ {ts}, Segment o ts → Segment o' ts
  | _, .name h1 => .name h1
  | _, .args h1 h2 h3 => .args h1 h2 h3
  | _, .fn h1 h2 h3 h4 => .fn h1 h2 h3 (return_mono h h4)
theorem bounds_mono {o o' : Outside} (h : LeOut o o') : ∀ {ts}, Bounds o ts → Bounds o' ts
  | _, .one h1 => .one (bound_mono h h1)
  | _, .plus h1 h2 => .plus (bound_mono h h1) h2
  | _, .cons h1 h2 h3 => .cons (bound_mono h h1) h2 (bounds_mono h h3)
theorem bound_mono {o o' : Outside} (h : LeOut o o') : ∀ {ts}, Bound o ts → Bound o' ts
  | _, .lifetime h1 => .lifetime h1
  | _, .trait h1 h2 h3 => .trait h1 h2 (typePath_mono h h3)
  | _, .parens h1 => .parens h1
  | _, .use h1 h2 => .use h1 h2
end

theorem colonBounds_mono {o o' : Outside} (h : LeOut o o') : ∀ ts, ColonBounds o ts → ColonBounds o' ts :=
  Seq.mono id_mono (Opt.mono fun _ => bounds_mono h)

section
variable {F G : Features} (h : Le F G)
include h

theorem param_le : LeOut (paramBounds F) (paramBounds G) := ⟨fun h => h, h _⟩
theorem brace_le : LeOut (beforeBrace F) (beforeBrace G) := ⟨h _, fun h => h⟩

theorem genericParam_mono : ∀ ts, GenericParam F ts → GenericParam G ts :=
  have t : ∀ ts, Ty (paramBounds F) ts → Ty (paramBounds G) ts := fun _ => ty_mono (param_le h)
  Seq.mono (Alt.mono id_mono (If.mono (h _) id_mono)) <| Alt.mono id_mono <| Alt.mono
    (Seq.mono id_mono (Opt.mono (Seq.mono (colonBounds_mono (param_le h)) (Opt.mono (Seq.mono id_mono t))))) <| Alt.mono
    (If.mono (h _) (Seq.mono id_mono (Seq.mono id_mono t)))
    (Seq.mono id_mono (Seq.mono id_mono (Seq.mono id_mono (Seq.mono t id_mono))))

theorem generics_mono : ∀ ts, GenericParams F ts → GenericParams G ts :=
  Seq.mono id_mono (Seq.mono (Commas.mono (genericParam_mono h)) id_mono)

theorem where_mono : ∀ ts, WhereClause F ts → WhereClause G ts :=
  Seq.mono id_mono <| Commas.mono <| Alt.mono (Seq.mono id_mono (colonBounds_mono (brace_le h)))
    (Seq.mono id_mono (Seq.mono (fun _ => ty_mono (brace_le h)) (colonBounds_mono (brace_le h))))

theorem tupleFields_mono : ∀ ts, TupleFields F ts → TupleFields G ts :=
  In.mono <| Commas.mono <| Alt.mono id_mono (Alt.mono (If.mono (h _) id_mono) (If.mono (h _) id_mono))

theorem struct_mono : ∀ ts, Struct F ts → Struct G ts :=
  have g := Opt.mono (generics_mono h); have w := Opt.mono (where_mono h)
  Alt.mono (Seq.mono id_mono (Seq.mono id_mono (Seq.mono g (Seq.mono w id_mono)))) <|
    Alt.mono (Seq.mono id_mono (Seq.mono id_mono (Seq.mono g (Seq.mono w id_mono))))
      (Seq.mono id_mono (Seq.mono id_mono (Seq.mono g (Seq.mono (tupleFields_mono h) (Seq.mono w id_mono)))))

theorem variant_mono : ∀ ts, EnumVariant F ts → EnumVariant G ts :=
  Seq.mono id_mono <| Seq.mono id_mono <| Seq.mono id_mono <| Seq.mono (Opt.mono (Alt.mono (tupleFields_mono h) id_mono)) <|
    Opt.mono <| Seq.mono id_mono (Alt.mono id_mono (If.mono (h _) id_mono))

theorem enum_mono : ∀ ts, Enum F ts → Enum G ts :=
  Seq.mono id_mono <| Seq.mono id_mono <| Seq.mono (Opt.mono (generics_mono h)) <| Seq.mono (Opt.mono (where_mono h)) <|
    In.mono <| Commas.mono (variant_mono h)

theorem union_mono : ∀ ts, Union F ts → Union G ts :=
  Seq.mono id_mono <| Seq.mono id_mono <| Seq.mono (Opt.mono (generics_mono h)) <| Seq.mono (Opt.mono (where_mono h)) id_mono

theorem safety_mono : ∀ ts, ItemSafety F ts → ItemSafety G ts := Alt.mono id_mono (If.mono (h _) id_mono)

theorem functionParam_mono : ∀ ts, FunctionParam F ts → FunctionParam G ts :=
  Alt.mono id_mono <| Alt.mono (If.mono (h _) id_mono) <| Alt.mono (If.mono (h _) id_mono) (If.mono (h _) id_mono)
theorem self_mono : ∀ ts, SelfParam F ts → SelfParam G ts := Alt.mono id_mono (If.mono (h _) id_mono)

theorem function_mono : ∀ ts, Function F ts → Function G ts :=
  Seq.mono (Seq.mono id_mono (Seq.mono id_mono (Seq.mono (Opt.mono (safety_mono h)) id_mono))) <| Seq.mono id_mono <| Seq.mono id_mono <|
    Seq.mono (Opt.mono (generics_mono h)) <|
    Seq.mono (In.mono (Alt.mono (Commas.mono (functionParam_mono h)) (Alt.mono (self_mono h)
      (Seq.mono (self_mono h) (Seq.mono id_mono (Commas.mono (functionParam_mono h))))))) <|
    Seq.mono (fun _ => return_mono (brace_le h)) <| Seq.mono (Opt.mono (where_mono h)) id_mono

theorem value_mono : ∀ ts, Value F ts → Value G ts := Alt.mono id_mono (If.mono (h _) id_mono)
theorem constant_mono : ∀ ts, Constant F ts → Constant G ts :=
  Seq.mono id_mono <| Seq.mono id_mono <| Seq.mono id_mono <| Seq.mono id_mono <| Seq.mono (Opt.mono (Seq.mono id_mono (value_mono h))) id_mono
theorem static_mono : ∀ ts, Static F ts → Static G ts :=
  Seq.mono (Alt.mono id_mono (If.mono (h _) (safety_mono h))) <| Seq.mono id_mono <| Seq.mono (Alt.mono id_mono (If.mono (h _) id_mono)) <|
    Seq.mono id_mono <| Seq.mono id_mono <| Seq.mono id_mono <| Seq.mono (Opt.mono (Seq.mono id_mono (value_mono h))) id_mono
theorem alias_mono : ∀ ts, TypeAlias F ts → TypeAlias G ts :=
  Seq.mono id_mono <| Seq.mono id_mono <| Seq.mono (Alt.mono id_mono (If.mono (h _) (generics_mono h))) <|
    Seq.mono (Alt.mono (Opt.mono (Seq.mono id_mono (Opt.mono (where_mono h)))) (If.mono (h _) (where_mono h))) <|
    Seq.mono (Opt.mono (Seq.mono id_mono (Seq.mono id_mono (Opt.mono (where_mono h))))) id_mono

theorem macro_mono : ∀ ts, MacroItem F ts → MacroItem G ts :=
  have p : ∀ ts, MacroPath F ts → MacroPath G ts := Alt.mono id_mono (Alt.mono (If.mono (h _) id_mono) (If.mono (h _) id_mono))
  Alt.mono (Seq.mono p id_mono) <| Alt.mono (Seq.mono p id_mono) <| Alt.mono (If.mono (h _) (Seq.mono p id_mono)) <| Alt.mono id_mono <|
    Alt.mono id_mono (If.mono (h _) id_mono)

theorem associated_mono : ∀ ts, AssociatedItem F ts → AssociatedItem G ts :=
  Alt.mono (Seq.mono id_mono (macro_mono h)) <| Seq.mono id_mono <| Seq.mono id_mono <|
    Alt.mono (function_mono h) (Alt.mono (constant_mono h) (alias_mono h))
theorem external_mono : ∀ ts, ExternalItem F ts → ExternalItem G ts :=
  Alt.mono (Seq.mono id_mono (macro_mono h)) <| Seq.mono id_mono <| Seq.mono id_mono <|
    Alt.mono (function_mono h) (Alt.mono (static_mono h) (alias_mono h))

theorem trait_mono : ∀ ts, Trait F ts → Trait G ts :=
  Seq.mono id_mono <| Seq.mono id_mono <| Seq.mono id_mono <| Seq.mono (Opt.mono (generics_mono h)) <|
    Seq.mono (Opt.mono (colonBounds_mono (brace_le h))) <| Seq.mono (Opt.mono (where_mono h)) <|
    In.mono <| Seq.mono id_mono (Many.mono (associated_mono h))

theorem implBody_mono : ∀ ts, ImplBody F ts → ImplBody G ts :=
  Seq.mono (Opt.mono (where_mono h)) <| In.mono <| Seq.mono id_mono (Many.mono (associated_mono h))

theorem implementation_mono : ∀ ts, Implementation F ts → Implementation G ts :=
  have t : ∀ ts, Ty (beforeBrace F) ts → Ty (beforeBrace G) ts := fun _ => ty_mono (brace_le h)
  Alt.mono
    (Seq.mono id_mono (Seq.mono
      (Alt.mono (Seq.mono (generics_mono h) t) (Alt.mono (fun _ h => ⟨t _ h.1, h.2⟩) (If.mono (h _) t))) (implBody_mono h)))
    (Seq.mono id_mono <| Seq.mono id_mono <| Seq.mono (Opt.mono (generics_mono h)) <| Seq.mono id_mono <|
      Seq.mono (fun _ => typePath_mono (brace_le h)) <| Seq.mono id_mono <| Seq.mono t (implBody_mono h))

theorem externBlock_mono : ∀ ts, ExternBlock F ts → ExternBlock G ts :=
  Seq.mono id_mono <| Seq.mono id_mono <| Seq.mono id_mono <| In.mono <| Seq.mono id_mono (Many.mono (external_mono h))

theorem visItem_mono : ∀ ts, VisItem F ts → VisItem G ts :=
  Alt.mono (struct_mono h) <| Alt.mono (enum_mono h) <| Alt.mono (union_mono h) <| Alt.mono (function_mono h) <| Alt.mono (constant_mono h) <|
    Alt.mono (static_mono h) <| Alt.mono (alias_mono h) <| Alt.mono id_mono <| Alt.mono id_mono <| Alt.mono (trait_mono h) (externBlock_mono h)

end

mutual
theorem item_mono {F G : Features} (h : Le F G) : ∀ {ts}, Item F ts → Item G ts
  | _, .vis ha hv hi => .vis ha hv (visItem_mono h _ hi)
  | _, .impl ha hv hi => .impl ha (Alt.mono id_mono (If.mono (h _) id_mono) _ hv) (implementation_mono h _ hi)
  | _, .macro ha hi => .macro ha (macro_mono h _ hi)
  | _, .moduleDeclaration ha hv hu hk hn hs => .moduleDeclaration ha hv hu hk hn hs
  | _, .module ha hv hu hk hn hi hs => .module ha hv hu hk hn hi (items_mono h hs)
theorem items_mono {F G : Features} (h : Le F G) : ∀ {ts}, Items F ts → Items G ts
  | _, .nil => .nil
  | _, .cons hi hs => .cons (item_mono h hi) (items_mono h hs)
end

/-! ## No switches, or only the visibility of implementations -/

/-- All the switches are off, save perhaps the visibility of implementations and long discriminants. -/
def Off (F : Features) : Prop := ∀ f, f ∉ [Feature.implVisibility, .longDiscriminant] → F f = false

theorem off_none : Off none := fun _ _ => rfl
theorem off_only : Off (only .implVisibility) := fun _ h => by simp_all [only]
theorem off_long : Off (only .longDiscriminant) := fun _ h => by simp_all [only]

variable {F : Features} (h : Off F)
include h

theorem paramBounds_off : paramBounds F = Rust.paramBounds := by
  unfold paramBounds; rw [h _ (by decide)]; rfl
theorem beforeBrace_off : beforeBrace F = Rust.beforeBrace := by
  unfold beforeBrace; rw [h _ (by decide)]; rfl
theorem genericParam_off : GenericParam F = Rust.GenericParam := by
  unfold GenericParam
  rw [paramBounds_off h, h .paramAttributes (by decide), h .plainDefault (by decide), if_false, if_false, alt_empty, empty_alt, nil_seq]; rfl
theorem generics_off : GenericParams F = Rust.GenericParams := by
  unfold GenericParams; rw [genericParam_off h]; rfl
theorem where_off : WhereClause F = Rust.WhereClause := by
  unfold WhereClause WhereClauseItem; rw [beforeBrace_off h]; rfl
theorem tupleFields_off : TupleFields F = Rust.TupleFields := by
  unfold TupleFields TupleField
  rw [h .pubParen (by decide), h .crateField (by decide), if_false, if_false, alt_empty, alt_empty]; rfl
theorem struct_off : Struct F = Rust.Struct := by
  unfold Struct; rw [generics_off h, where_off h, tupleFields_off h]; rfl
theorem variant_off (hd : F .longDiscriminant = false) : EnumVariant F = Rust.EnumVariant := by
  unfold EnumVariant Discriminant
  rw [tupleFields_off h, hd, if_false, alt_empty]; rfl
theorem enum_off (hd : F .longDiscriminant = false) : Enum F = Rust.Enum := by
  unfold Enum; rw [generics_off h, where_off h, variant_off h hd]; rfl
theorem union_off : Union F = Rust.Union := by unfold Union; rw [generics_off h, where_off h]; rfl
theorem safety_off : ItemSafety F = Word "unsafe" := by
  unfold ItemSafety; rw [h .safety (by decide), if_false, alt_empty]
theorem function_off : Function F = Rust.Function := by
  unfold Function FunctionParameters SelfParam FunctionParam FunctionQualifiers
  rw [safety_off h, generics_off h, where_off h, beforeBrace_off h, h .typedSelf (by decide), h .pattern (by decide), h .variadic (by decide),
    h .typeOnly (by decide)]
  simp only [if_false, alt_empty]; rfl
theorem value_off : Value F = Rust.Value := by
  unfold Value; rw [h .angleValue (by decide), if_false, alt_empty]
theorem constant_off : Constant F = Rust.Constant := by unfold Constant; rw [value_off h]; rfl
theorem static_off : Static F = Rust.Static := by
  unfold Static
  rw [value_off h, h .safety (by decide), h .staticMut (by decide), if_false, if_false, alt_empty, nil_seq, nil_seq]; rfl
theorem alias_off : TypeAlias F = Rust.TypeAlias := by
  unfold TypeAlias
  rw [where_off h, h .aliasParams (by decide), h .aliasWhere (by decide), if_false, if_false, alt_empty, alt_empty, nil_seq]; rfl
theorem macro_off : MacroItem F = Rust.MacroItem := by
  unfold MacroItem MacroPath
  rw [h .pathMacro (by decide), h .macroName (by decide), h .bracketMacro (by decide)]
  simp only [if_false, alt_empty, empty_alt]; rfl
theorem associated_off : AssociatedItem F = Rust.AssociatedItem := by
  unfold AssociatedItem; rw [macro_off h, function_off h, constant_off h, alias_off h]; rfl
theorem external_off : ExternalItem F = Rust.ExternalItem := by
  unfold ExternalItem; rw [macro_off h, function_off h, static_off h, alias_off h]; rfl
theorem trait_off : Trait F = Rust.Trait := by
  unfold Trait; rw [generics_off h, where_off h, associated_off h, beforeBrace_off h]; rfl
theorem implementation_off : Implementation F = Rust.Implementation := by
  unfold Implementation InherentImpl TraitImpl ImplBody
  rw [where_off h, associated_off h, generics_off h, beforeBrace_off h, h .qualifiedImpl (by decide), if_false, alt_empty]; rfl
theorem externBlock_off : ExternBlock F = Rust.ExternBlock := by unfold ExternBlock; rw [external_off h]; rfl
theorem visItem_off (hd : F .longDiscriminant = false) : VisItem F = Rust.VisItem := by
  unfold VisItem
  rw [struct_off h, enum_off h hd, union_off h, function_off h, constant_off h, static_off h, alias_off h, trait_off h, externBlock_off h]; rfl

omit h

mutual
/-- Without switches, the grammar is that of `Spec/Rust.lean`. -/
theorem item_none : ∀ {ts}, Item none ts → Rust.Item ts
  | _, .vis ha hv hi => .vis ha hv (visItem_off off_none rfl ▸ hi)
  | _, .impl ha (.inl hv) hi => by cases hv; exact .impl ha (implementation_off off_none ▸ hi)
  | _, .macro ha hi => .macro ha (macro_off off_none ▸ hi)
  | _, .moduleDeclaration ha hv hu hk hn hs => .moduleDeclaration ha hv hu hk hn hs
  | _, .module ha hv hu hk hn hi hs => .module ha hv hu hk hn hi (items_none hs)
theorem items_none : ∀ {ts}, Items none ts → Rust.Items ts
  | _, .nil => .nil
  | _, .cons hi hs => .cons (item_none hi) (items_none hs)
end

mutual
theorem none_item : ∀ {ts}, Rust.Item ts → Item none ts
  | _, .vis ha hv hi => .vis ha hv ((visItem_off off_none rfl).symm ▸ hi)
  | _, .impl ha hi => .impl (v := []) ha (.inl rfl) ((implementation_off off_none).symm ▸ hi)
  | _, .macro ha hi => .macro ha ((macro_off off_none).symm ▸ hi)
  | _, .moduleDeclaration ha hv hu hk hn hs => .moduleDeclaration ha hv hu hk hn hs
  | _, .module ha hv hu hk hn hi hs => .module ha hv hu hk hn hi (none_items hs)
theorem none_items : ∀ {ts}, Rust.Items ts → Items none ts
  | _, .nil => .nil
  | _, .cons hi hs => .cons (none_item hi) (none_items hs)
end

end Venial.Rust.Full
