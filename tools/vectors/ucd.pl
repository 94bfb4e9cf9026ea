use strict; use warnings; no warnings 'utf8','nonchar','surrogate';
use Unicode::Normalize qw(getCanon getCombinClass getComposite isExclusion isSingleton isNonStDecomp);
use Unicode::UCD qw(prop_invmap);
print STDERR Unicode::UCD::UnicodeVersion(),"\n";
for my $p (qw(Bidi_Class Joining_Type Script General_Category Canonical_Combining_Class)) {
  my ($list,$map,$format,$default)=prop_invmap($p);
  for my $i (0..$#$list) { my $e=$i<$#$list?$list->[$i+1]-1:0x10FFFF; next if $list->[$i]>0x10FFFF; print "$p $list->[$i] $e $map->[$i]\n"; }
}
my ($list,$map,$format,$default)=prop_invmap("Decomposition_Mapping");
print STDERR "$format\n";
